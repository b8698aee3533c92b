import Verif.Lib.Decay

/-!
# Damped oscillations die out at a known rate
-/

open Filter Topology Set

namespace Thunder

/-- A function with `V' ≤ -l V` from time 0 on stays below `V(0) exp(-l t)`. -/
theorem le_exp_of_rate {V : ℝ → ℝ} {l : ℝ} (h : ∀ t, 0 ≤ t → ∃ d ≤ -(l * V t), HasDerivAt V d t) {t : ℝ} (ht : 0 ≤ t) :
    V t ≤ V 0 * Real.exp (-(l * t)) := by
  have hdec : AntitoneOn (fun z => Real.exp (l * z) * V z) (Ici 0) := antitoneOn_of_loses fun z hz => by
    obtain ⟨d, h1, h2⟩ := h z hz
    have h3 : HasDerivAt (fun z => Real.exp (l * z)) (Real.exp (l * z) * (l * 1)) z := ((hasDerivAt_id z).const_mul l).exp
    refine ⟨_, ?_, h3.mul h2⟩
    have : Real.exp (l * z) * (l * 1) * V z + Real.exp (l * z) * d = Real.exp (l * z) * (d + l * V z) := by ring
    rw [this]
    exact mul_nonpos_of_nonneg_of_nonpos (Real.exp_pos _).le (by linarith)
  have h4 := hdec (show (0 : ℝ) ∈ Ici (0 : ℝ) from le_refl (0 : ℝ)) (show t ∈ Ici (0 : ℝ) from ht) ht
  simp only [mul_zero, Real.exp_zero, one_mul] at h4
  rw [Real.exp_neg, ← div_eq_mul_inv, le_div_iff₀ (Real.exp_pos _), mul_comm]
  exact h4

/-- A solution of `e'' + kd e' + kp e = 0` with positive `kd`, `kp` dies out at the rate `min (kd/3) (kp/kd)`. -/
theorem damped {e v : ℝ → ℝ} {kp kd : ℝ} (hp : 0 < kp) (hd : 0 < kd) (he : ∀ t, 0 ≤ t → HasDerivAt e (v t) t)
    (hv : ∀ t, 0 ≤ t → HasDerivAt v (-(kd * v t) - kp * e t) t) {t : ℝ} (ht : 0 ≤ t) :
    v t ^ 2 + kp * e t ^ 2 ≤ 5 * (v 0 ^ 2 + kp * e 0 ^ 2) * Real.exp (-(min (kd / 3) (kp / kd) * t)) := by
  set l := min (kd / 3) (kp / kd) with hl
  have l0 : 0 < l := lt_min (by positivity) (by positivity)
  have l1 : 3 * l ≤ kd := by
    have := min_le_left (kd / 3) (kp / kd)
    rw [← hl] at this
    linarith
  have l2 : l * kd ≤ kp := (le_div_iff₀ hd).1 (min_le_right _ _)
  have l3 : 3 * l ^ 2 ≤ kp := by nlinarith
  have hV : ∀ t, 0 ≤ t → ∃ d ≤ -(l * (v t ^ 2 + kp * e t ^ 2 + 2 * l * (e t * v t))),
      HasDerivAt (fun t => v t ^ 2 + kp * e t ^ 2 + 2 * l * (e t * v t)) d t := by
    intro t ht
    refine ⟨_, ?_, (((hv t ht).fun_pow 2).add (((he t ht).fun_pow 2).const_mul kp)).add (((he t ht).mul (hv t ht)).const_mul (2 * l))⟩
    simp only [Nat.add_one_sub_one, pow_one, Nat.cast_ofNat]
    have key : 0 ≤ (2 * kd - 3 * l) * v t ^ 2 + l * kp * e t ^ 2 + 2 * l * (kd - l) * (e t * v t) := by
      have h1 : kd * v t ^ 2 ≤ (2 * kd - 3 * l) * v t ^ 2 := mul_le_mul_of_nonneg_right (by linarith) (sq_nonneg _)
      have h2 : 0 ≤ kd * v t ^ 2 + l * kp * e t ^ 2 + 2 * l * (kd - l) * (e t * v t) := by
        have h3 : 0 ≤ kd * (kd * v t ^ 2 + l * kp * e t ^ 2 + 2 * l * (kd - l) * (e t * v t)) := by
          have h4 : kd * (kd * v t ^ 2 + l * kp * e t ^ 2 + 2 * l * (kd - l) * (e t * v t)) =
              (kd * v t + l * (kd - l) * e t) ^ 2 + l * (kd * kp - l * (kd - l) ^ 2) * e t ^ 2 := by ring
          have h5 : l * (kd - l) ^ 2 ≤ kd * kp := by nlinarith
          rw [h4]
          exact add_nonneg (sq_nonneg _) (mul_nonneg (mul_nonneg l0.le (by linarith)) (sq_nonneg _))
        exact nonneg_of_mul_nonneg_right h3 hd
      linarith
    nlinarith
  have h1 := le_exp_of_rate hV ht
  have hlow : v t ^ 2 + kp * e t ^ 2 ≤ 3 * (v t ^ 2 + kp * e t ^ 2 + 2 * l * (e t * v t)) := by
    nlinarith [sq_nonneg (2 * v t + 3 * l * e t), mul_nonneg (show (0 : ℝ) ≤ kp - 3 * l ^ 2 by linarith) (sq_nonneg (e t)), mul_nonneg hp.le (sq_nonneg (e t))]
  have hup : 3 * (v 0 ^ 2 + kp * e 0 ^ 2 + 2 * l * (e 0 * v 0)) ≤ 5 * (v 0 ^ 2 + kp * e 0 ^ 2) := by
    nlinarith [sq_nonneg (2 * v 0 - 3 * l * e 0), mul_nonneg (show (0 : ℝ) ≤ kp - 3 * l ^ 2 by linarith) (sq_nonneg (e 0)), mul_nonneg hp.le (sq_nonneg (e 0))]
  calc v t ^ 2 + kp * e t ^ 2 ≤ 3 * (v t ^ 2 + kp * e t ^ 2 + 2 * l * (e t * v t)) := hlow
    _ ≤ 3 * ((v 0 ^ 2 + kp * e 0 ^ 2 + 2 * l * (e 0 * v 0)) * Real.exp (-(l * t))) := by linarith
    _ = 3 * (v 0 ^ 2 + kp * e 0 ^ 2 + 2 * l * (e 0 * v 0)) * Real.exp (-(l * t)) := by ring
    _ ≤ _ := mul_le_mul_of_nonneg_right hup (Real.exp_pos _).le

/-- With a disturbance of at most `w` the same holds at half the rate, up to a term of the size of the disturbance. -/
theorem damped_disturbed {e v a : ℝ → ℝ} {kp kd w : ℝ} (hp : 0 < kp) (hd : 0 < kd) (he : ∀ t, 0 ≤ t → HasDerivAt e (v t) t)
    (hv : ∀ t, 0 ≤ t → HasDerivAt v (a t) t) (ha : ∀ t, 0 ≤ t → |a t - (-(kd * v t) - kp * e t)| ≤ w) {t : ℝ} (ht : 0 ≤ t) :
    v t ^ 2 + kp * e t ^ 2 ≤ 5 * (v 0 ^ 2 + kp * e 0 ^ 2) * Real.exp (-(min (kd / 3) (kp / kd) / 2 * t)) + 12 * (w / min (kd / 3) (kp / kd)) ^ 2 := by
  set l := min (kd / 3) (kp / kd) with hl
  have l0 : 0 < l := lt_min (by positivity) (by positivity)
  have l1 : 3 * l ≤ kd := by
    have := min_le_left (kd / 3) (kp / kd)
    rw [← hl] at this
    linarith
  have l2 : l * kd ≤ kp := (le_div_iff₀ hd).1 (min_le_right _ _)
  have l3 : 3 * l ^ 2 ≤ kp := by nlinarith
  have hV : ∀ t, 0 ≤ t → ∃ d ≤ -(l / 2 * (v t ^ 2 + kp * e t ^ 2 + 2 * l * (e t * v t) - 4 * (w / l) ^ 2)),
      HasDerivAt (fun t => v t ^ 2 + kp * e t ^ 2 + 2 * l * (e t * v t) - 4 * (w / l) ^ 2) d t := by
    intro t ht
    refine ⟨_, ?_, ((((hv t ht).fun_pow 2).add (((he t ht).fun_pow 2).const_mul kp)).add (((he t ht).mul (hv t ht)).const_mul (2 * l))).sub_const _⟩
    simp only [Nat.add_one_sub_one, pow_one, Nat.cast_ofNat]
    obtain ⟨x, hx⟩ : ∃ x, a t = -(kd * v t) - kp * e t + x := ⟨a t - (-(kd * v t) - kp * e t), by ring⟩
    have hxw : |x| ≤ w := by
      have := ha t ht
      rwa [hx, add_sub_cancel_left] at this
    rw [hx]
    have key : 0 ≤ (2 * kd - 3 * l) * v t ^ 2 + l * kp * e t ^ 2 + 2 * l * (kd - l) * (e t * v t) := by
      have h1 : kd * v t ^ 2 ≤ (2 * kd - 3 * l) * v t ^ 2 := mul_le_mul_of_nonneg_right (by linarith) (sq_nonneg _)
      have h2 : 0 ≤ kd * v t ^ 2 + l * kp * e t ^ 2 + 2 * l * (kd - l) * (e t * v t) := by
        have h3 : 0 ≤ kd * (kd * v t ^ 2 + l * kp * e t ^ 2 + 2 * l * (kd - l) * (e t * v t)) := by
          have h4 : kd * (kd * v t ^ 2 + l * kp * e t ^ 2 + 2 * l * (kd - l) * (e t * v t)) =
              (kd * v t + l * (kd - l) * e t) ^ 2 + l * (kd * kp - l * (kd - l) ^ 2) * e t ^ 2 := by ring
          have h5 : l * (kd - l) ^ 2 ≤ kd * kp := by nlinarith
          rw [h4]
          exact add_nonneg (sq_nonneg _) (mul_nonneg (mul_nonneg l0.le (by linarith)) (sq_nonneg _))
        exact nonneg_of_mul_nonneg_right h3 hd
      linarith
    have hd' : 2 * x * (v t + l * e t) ≤ l / 2 * (v t + l * e t) ^ 2 + l / 2 * (4 * (w / l) ^ 2) := by
      have h1 : x ^ 2 ≤ w ^ 2 := sq_le_sq' (by linarith [(abs_le.1 hxw).1]) (abs_le.1 hxw).2
      have h2 : l / 2 * (4 * (w / l) ^ 2) = 2 / l * w ^ 2 := by field_simp; ring
      have h3 : 2 / l * x ^ 2 ≤ 2 / l * w ^ 2 := mul_le_mul_of_nonneg_left h1 (by positivity)
      have h4 : l / 2 * (v t + l * e t) ^ 2 + 2 / l * x ^ 2 - 2 * x * (v t + l * e t) = 1 / (2 * l) * (l * (v t + l * e t) - 2 * x) ^ 2 := by
        field_simp; ring
      have h5 : 0 ≤ 1 / (2 * l) * (l * (v t + l * e t) - 2 * x) ^ 2 := by positivity
      linarith
    have hs : (v t + l * e t) ^ 2 ≤ v t ^ 2 + kp * e t ^ 2 + 2 * l * (e t * v t) := by
      nlinarith [mul_nonneg (show (0 : ℝ) ≤ kp - l ^ 2 by nlinarith) (sq_nonneg (e t))]
    have hs' := mul_le_mul_of_nonneg_left hs (show 0 ≤ l / 2 by positivity)
    nlinarith
  have h1 := le_exp_of_rate hV ht
  have hlow : v t ^ 2 + kp * e t ^ 2 ≤ 3 * (v t ^ 2 + kp * e t ^ 2 + 2 * l * (e t * v t)) := by
    nlinarith [sq_nonneg (2 * v t + 3 * l * e t), mul_nonneg (show (0 : ℝ) ≤ kp - 3 * l ^ 2 by linarith) (sq_nonneg (e t)), mul_nonneg hp.le (sq_nonneg (e t))]
  have hup : 3 * (v 0 ^ 2 + kp * e 0 ^ 2 + 2 * l * (e 0 * v 0)) ≤ 5 * (v 0 ^ 2 + kp * e 0 ^ 2) := by
    nlinarith [sq_nonneg (2 * v 0 - 3 * l * e 0), mul_nonneg (show (0 : ℝ) ≤ kp - 3 * l ^ 2 by linarith) (sq_nonneg (e 0)), mul_nonneg hp.le (sq_nonneg (e 0))]
  have h2 := mul_le_mul_of_nonneg_right hup (Real.exp_pos (-(l / 2 * t))).le
  have h3 : 0 ≤ 4 * (w / l) ^ 2 * Real.exp (-(l / 2 * t)) := by positivity
  nlinarith

end Thunder
