import Verif.Lib.Damped
import Mathlib.Analysis.Calculus.MeanValue

/-!
# Damped oscillations with derivatives on the right
-/

open Filter Topology Set

namespace Thunder

/-- `le_exp_of_rate` with a derivative on the right, up to a time `t`. -/
theorem le_exp_until {V : ℝ → ℝ} {l t : ℝ} (hc : ContinuousOn V (Icc 0 t)) (h : ∀ z ∈ Ico 0 t, ∃ d ≤ -(l * V z), HasDerivWithinAt V d (Ici z) z)
    (ht : 0 ≤ t) : V t ≤ V 0 * Real.exp (-(l * t)) := by
  choose! d h1 h2 using h
  have he : ∀ z, HasDerivAt (fun z => Real.exp (l * z)) (Real.exp (l * z) * (l * 1)) z := fun z => ((hasDerivAt_id z).const_mul l).exp
  have h4 := image_le_of_deriv_right_le_deriv_boundary (f := fun z => Real.exp (l * z) * V z)
    (f' := fun z => Real.exp (l * z) * (l * 1) * V z + Real.exp (l * z) * d z) (B := fun _ => V 0) (B' := fun _ => 0) (a := 0) (b := t)
    ((continuousOn_of_forall_continuousAt fun z _ => (he z).continuousAt).mul hc) (fun z hz => (he z).hasDerivWithinAt.mul (h2 z hz)) (by simp) continuousOn_const
    (fun z _ => hasDerivWithinAt_const _ _ _) (fun z hz => by
      have : Real.exp (l * z) * (l * 1) * V z + Real.exp (l * z) * d z = Real.exp (l * z) * (d z + l * V z) := by ring
      rw [this]
      exact mul_nonpos_of_nonneg_of_nonpos (Real.exp_pos _).le (by linarith [h1 z hz])) (right_mem_Icc.2 ht)
  rw [Real.exp_neg, ← div_eq_mul_inv, le_div_iff₀ (Real.exp_pos _), mul_comm]
  exact h4

/-- `damped_disturbed` up to a time `T`, when the velocity has a derivative on the right only. -/
theorem damped_until {e v a : ℝ → ℝ} {kp kd w t : ℝ} (hp : 0 < kp) (hd : 0 < kd) (ce : ContinuousOn e (Icc 0 t)) (cv : ContinuousOn v (Icc 0 t))
    (he : ∀ z ∈ Ico 0 t, HasDerivWithinAt e (v z) (Ici z) z) (hv : ∀ z ∈ Ico 0 t, HasDerivWithinAt v (a z) (Ici z) z)
    (ha : ∀ z ∈ Ico 0 t, |a z - (-(kd * v z) - kp * e z)| ≤ w) (ht : 0 ≤ t) :
    v t ^ 2 + kp * e t ^ 2 ≤ 5 * (v 0 ^ 2 + kp * e 0 ^ 2) * Real.exp (-(min (kd / 3) (kp / kd) / 2 * t)) + 12 * (w / min (kd / 3) (kp / kd)) ^ 2 := by
  set l := min (kd / 3) (kp / kd) with hl
  have l0 : 0 < l := lt_min (by positivity) (by positivity)
  have l1 : 3 * l ≤ kd := by
    have := min_le_left (kd / 3) (kp / kd)
    rw [← hl] at this
    linarith
  have l2 : l * kd ≤ kp := (le_div_iff₀ hd).1 (min_le_right _ _)
  have l3 : 3 * l ^ 2 ≤ kp := by nlinarith
  have hV : ∀ t' ∈ Ico 0 t, ∃ d ≤ -(l / 2 * (v t' ^ 2 + kp * e t' ^ 2 + 2 * l * (e t' * v t') - 4 * (w / l) ^ 2)),
      HasDerivWithinAt (fun t => v t ^ 2 + kp * e t ^ 2 + 2 * l * (e t * v t) - 4 * (w / l) ^ 2) d (Ici t') t' := by
    intro z hz
    refine ⟨_, ?_, ((((hv z hz).fun_pow 2).add (((he z hz).fun_pow 2).const_mul kp)).add (((he z hz).mul (hv z hz)).const_mul (2 * l))).sub_const _⟩
    simp only [Nat.add_one_sub_one, pow_one, Nat.cast_ofNat]
    obtain ⟨x, hx⟩ : ∃ x, a z = -(kd * v z) - kp * e z + x := ⟨a z - (-(kd * v z) - kp * e z), by ring⟩
    have hxw : |x| ≤ w := by
      have := ha z hz
      rwa [hx, add_sub_cancel_left] at this
    rw [hx]
    have key : 0 ≤ (2 * kd - 3 * l) * v z ^ 2 + l * kp * e z ^ 2 + 2 * l * (kd - l) * (e z * v z) := by
      have h1 : kd * v z ^ 2 ≤ (2 * kd - 3 * l) * v z ^ 2 := mul_le_mul_of_nonneg_right (by linarith) (sq_nonneg _)
      have h2 : 0 ≤ kd * v z ^ 2 + l * kp * e z ^ 2 + 2 * l * (kd - l) * (e z * v z) := by
        have h3 : 0 ≤ kd * (kd * v z ^ 2 + l * kp * e z ^ 2 + 2 * l * (kd - l) * (e z * v z)) := by
          have h4 : kd * (kd * v z ^ 2 + l * kp * e z ^ 2 + 2 * l * (kd - l) * (e z * v z)) =
              (kd * v z + l * (kd - l) * e z) ^ 2 + l * (kd * kp - l * (kd - l) ^ 2) * e z ^ 2 := by ring
          have h5 : l * (kd - l) ^ 2 ≤ kd * kp := by nlinarith
          rw [h4]
          exact add_nonneg (sq_nonneg _) (mul_nonneg (mul_nonneg l0.le (by linarith)) (sq_nonneg _))
        exact nonneg_of_mul_nonneg_right h3 hd
      linarith
    have hd' : 2 * x * (v z + l * e z) ≤ l / 2 * (v z + l * e z) ^ 2 + l / 2 * (4 * (w / l) ^ 2) := by
      have h1 : x ^ 2 ≤ w ^ 2 := sq_le_sq' (by linarith [(abs_le.1 hxw).1]) (abs_le.1 hxw).2
      have h2 : l / 2 * (4 * (w / l) ^ 2) = 2 / l * w ^ 2 := by field_simp; ring
      have h3 : 2 / l * x ^ 2 ≤ 2 / l * w ^ 2 := mul_le_mul_of_nonneg_left h1 (by positivity)
      have h4 : l / 2 * (v z + l * e z) ^ 2 + 2 / l * x ^ 2 - 2 * x * (v z + l * e z) = 1 / (2 * l) * (l * (v z + l * e z) - 2 * x) ^ 2 := by
        field_simp; ring
      have h5 : 0 ≤ 1 / (2 * l) * (l * (v z + l * e z) - 2 * x) ^ 2 := by positivity
      linarith
    have hs : (v z + l * e z) ^ 2 ≤ v z ^ 2 + kp * e z ^ 2 + 2 * l * (e z * v z) := by
      nlinarith [mul_nonneg (show (0 : ℝ) ≤ kp - l ^ 2 by nlinarith) (sq_nonneg (e z))]
    have hs' := mul_le_mul_of_nonneg_left hs (show 0 ≤ l / 2 by positivity)
    nlinarith
  have h1 := le_exp_until (V := fun t => v t ^ 2 + kp * e t ^ 2 + 2 * l * (e t * v t) - 4 * (w / l) ^ 2)
    ((((cv.pow 2).add (continuousOn_const.mul (ce.pow 2))).add (continuousOn_const.mul (ce.mul cv))).sub continuousOn_const) hV ht
  have hlow : v t ^ 2 + kp * e t ^ 2 ≤ 3 * (v t ^ 2 + kp * e t ^ 2 + 2 * l * (e t * v t)) := by
    nlinarith [sq_nonneg (2 * v t + 3 * l * e t), mul_nonneg (show (0 : ℝ) ≤ kp - 3 * l ^ 2 by linarith) (sq_nonneg (e t)), mul_nonneg hp.le (sq_nonneg (e t))]
  have hup : 3 * (v 0 ^ 2 + kp * e 0 ^ 2 + 2 * l * (e 0 * v 0)) ≤ 5 * (v 0 ^ 2 + kp * e 0 ^ 2) := by
    nlinarith [sq_nonneg (2 * v 0 - 3 * l * e 0), mul_nonneg (show (0 : ℝ) ≤ kp - 3 * l ^ 2 by linarith) (sq_nonneg (e 0)), mul_nonneg hp.le (sq_nonneg (e 0))]
  have h2 := mul_le_mul_of_nonneg_right hup (Real.exp_pos (-(l / 2 * t))).le
  have h3 : 0 ≤ 4 * (w / l) ^ 2 * Real.exp (-(l / 2 * t)) := by positivity
  nlinarith

/-- What holds at time 0, in the limit, and for a while whenever it has held so far, holds for ever. -/
theorem stays {P : ℝ → Prop} (h0 : P 0) (hl : ∀ t, 0 < t → (∀ z, 0 ≤ z → z < t → P z) → P t)
    (hr : ∀ t, 0 ≤ t → (∀ z, 0 ≤ z → z ≤ t → P z) → ∃ ε, 0 < ε ∧ ∀ z, t < z → z < t + ε → P z) : ∀ t, 0 ≤ t → P t := by
  by_contra hn
  push Not at hn
  obtain ⟨t, ht, hn⟩ := hn
  set S := {z | 0 ≤ z ∧ ¬P z} with hS
  have hb : BddBelow S := ⟨0, fun z hz => hz.1⟩
  have hne : S.Nonempty := ⟨t, ht, hn⟩
  have hm0 : 0 ≤ sInf S := le_csInf hne fun z hz => hz.1
  have hlt : ∀ z, 0 ≤ z → z < sInf S → P z := fun z hz hz' => by
    by_contra h
    exact absurd (csInf_le hb ⟨hz, h⟩) (not_le.2 hz')
  have hm : P (sInf S) := by
    rcases hm0.eq_or_lt with h | h
    · rw [← h]
      exact h0
    · exact hl _ h hlt
  obtain ⟨ε, hε, H⟩ := hr _ hm0 fun z hz hz' => by
    rcases hz'.eq_or_lt with rfl | h
    · exact hm
    · exact hlt z hz h
  obtain ⟨z, hz, hz'⟩ := exists_lt_of_csInf_lt hne (lt_add_of_pos_right (sInf S) hε)
  rcases (csInf_le hb hz).eq_or_lt with h | h
  · exact hz.2 (h ▸ hm)
  · exact hz.2 (H z h hz')

end Thunder
