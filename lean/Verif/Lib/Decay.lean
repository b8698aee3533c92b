import Mathlib.Analysis.Calculus.Deriv.MeanValue
import Mathlib.Analysis.Calculus.MeanValue
import Mathlib.Analysis.Calculus.Deriv.Pow
import Mathlib.Analysis.SpecialFunctions.ExpDeriv

/-!
# Signals that die out

Facts about real functions, used for the closed loops of C74: a signal whose square is paid for by a quantity bounded below tends to zero if its
derivative is bounded, and a stable linear filter turns a signal that tends to zero into one that does.
-/

open Filter Topology Set

namespace Thunder

/-- A function with non-positive derivative from time 0 on does not grow. -/
theorem antitoneOn_of_loses {V : ℝ → ℝ} (h : ∀ t, 0 ≤ t → ∃ d ≤ 0, HasDerivAt V d t) : AntitoneOn V (Ici 0) := by
  refine antitoneOn_of_deriv_nonpos (convex_Ici 0) (fun t ht => ?_) (fun t ht => ?_) fun t ht => ?_
  · obtain ⟨d, -, hd⟩ := h t ht
    exact hd.continuousAt.continuousWithinAt
  · obtain ⟨d, -, hd⟩ := h t (interior_subset ht)
    exact hd.differentiableAt.differentiableWithinAt
  · obtain ⟨d, h0, hd⟩ := h t (interior_subset ht)
    rw [hd.deriv]
    exact h0

/-- If a quantity bounded below loses at least `k u²` per unit of time and the derivative of `u` is bounded, then `u` tends to zero. -/
theorem tendsto_zero_of_pays {V u : ℝ → ℝ} {k b : ℝ} (hk : 0 < k) (hV : ∀ t, 0 ≤ t → 0 ≤ V t)
    (hl : ∀ t, 0 ≤ t → ∃ d ≤ -(k * u t ^ 2), HasDerivAt V d t) (hu : ∀ t, 0 ≤ t → ∃ d, |d| ≤ b ∧ HasDerivAt u d t) :
    Tendsto u atTop (𝓝 0) := by
  have hb : 0 ≤ b := by
    obtain ⟨d, h1, -⟩ := hu 0 le_rfl
    exact (abs_nonneg d).trans h1
  have hanti : AntitoneOn V (Ici 0) := antitoneOn_of_loses fun t ht => by
    obtain ⟨d, h1, h2⟩ := hl t ht
    exact ⟨d, h1.trans (neg_nonpos.2 (mul_nonneg hk.le (sq_nonneg _))), h2⟩
  have hlim : ∃ L, Tendsto V atTop (𝓝 L) := by
    have h1 : Antitone fun t => V (max 0 t) := fun a b' hab =>
      hanti (le_max_left 0 a) (le_max_left 0 b') (max_le_max le_rfl hab)
    have h2 : BddBelow (range fun t => V (max 0 t)) := ⟨0, by rintro _ ⟨t, rfl⟩; exact hV _ (le_max_left _ _)⟩
    refine ⟨_, (tendsto_atTop_ciInf h1 h2).congr' ?_⟩
    filter_upwards [eventually_ge_atTop (0 : ℝ)] with t ht
    rw [max_eq_right ht]
  obtain ⟨L, hL⟩ := hlim
  rw [Metric.tendsto_atTop]
  intro ε hε
  set δ : ℝ := ε / (2 * (b + 1)) with hδ
  have hδ0 : 0 < δ := by positivity
  have hdiff : Tendsto (fun t => V t - V (t + δ)) atTop (𝓝 (L - L)) :=
    hL.sub (hL.comp (tendsto_atTop_add_const_right _ δ tendsto_id))
  rw [sub_self] at hdiff
  have hsmall : ∀ᶠ t in atTop, V t - V (t + δ) < k * (ε / 2) ^ 2 * δ := hdiff.eventually_lt_const (by positivity)
  obtain ⟨T, hT⟩ := eventually_atTop.1 (hsmall.and (eventually_ge_atTop (0 : ℝ)))
  refine ⟨T, fun t ht => ?_⟩
  obtain ⟨h1, h0⟩ := hT t ht
  rw [dist_zero_right, Real.norm_eq_abs]
  by_contra hn
  rw [not_lt] at hn
  have hfar : ∀ z ∈ Icc t (t + δ), ε / 2 ≤ |u z| := by
    intro z hz
    have h2 : ‖u z - u t‖ ≤ b * ‖z - t‖ := by
      refine (convex_Icc t (t + δ)).norm_image_sub_le_of_norm_deriv_le (f := u) (fun x hx => ?_) (fun x hx => ?_) (left_mem_Icc.2 (by linarith)) hz
      · obtain ⟨d, -, hd⟩ := hu x (h0.trans hx.1)
        exact hd.differentiableAt
      · obtain ⟨d, h3, hd⟩ := hu x (h0.trans hx.1)
        rw [hd.deriv]
        exact h3
    rw [Real.norm_eq_abs, Real.norm_eq_abs, abs_of_nonneg (by linarith [hz.1] : 0 ≤ z - t)] at h2
    have h3 : b * (z - t) ≤ ε / 2 := by
      have h4 : b * (z - t) ≤ (b + 1) * δ := mul_le_mul (by linarith) (by linarith [hz.2]) (by linarith [hz.1]) (by linarith)
      have h5 : (b + 1) * δ = ε / 2 := by
        rw [hδ]
        field_simp
      linarith
    have h6 : |u t| - |u z| ≤ |u t - u z| := abs_sub_abs_le_abs_sub _ _
    rw [abs_sub_comm] at h6
    linarith
  have hloss : V (t + δ) - V t ≤ -(k * (ε / 2) ^ 2) * (t + δ - t) := by
    refine (convex_Icc t (t + δ)).image_sub_le_mul_sub_of_deriv_le (f := V) (fun x hx => ?_) (fun x hx => ?_) (fun x hx => ?_) t
      (left_mem_Icc.2 (by linarith)) (t + δ) (right_mem_Icc.2 (by linarith)) (by linarith)
    · obtain ⟨d, -, hd⟩ := hl x (h0.trans hx.1)
      exact hd.continuousAt.continuousWithinAt
    · obtain ⟨d, -, hd⟩ := hl x (h0.trans (interior_subset hx).1)
      exact hd.differentiableAt.differentiableWithinAt
    · obtain ⟨d, h3, hd⟩ := hl x (h0.trans (interior_subset hx).1)
      rw [hd.deriv]
      refine h3.trans (neg_le_neg (mul_le_mul_of_nonneg_left ?_ hk.le))
      rw [← sq_abs (u x)]
      exact pow_le_pow_left₀ (by linarith) (hfar x (interior_subset hx)) 2
  rw [add_sub_cancel_left] at hloss
  linarith

/-- One side of `tendsto_zero_of_filter`. -/
theorem filter_upper {x u : ℝ → ℝ} {l : ℝ} (hl : 0 < l) (hx : ∀ t, 0 ≤ t → HasDerivAt x (u t - l * x t) t) (hu : Tendsto u atTop (𝓝 0))
    {ε : ℝ} (hε : 0 < ε) : ∀ᶠ t in atTop, x t < ε := by
  have h1 : ∀ᶠ t in atTop, u t < l * (ε / 2) := hu.eventually_lt_const (by positivity)
  obtain ⟨T, hT⟩ := eventually_atTop.1 (h1.and (eventually_ge_atTop (0 : ℝ)))
  have hT0 : 0 ≤ T := (hT T le_rfl).2
  have hdec : AntitoneOn (fun z => Real.exp (l * (z + T)) * (x (z + T) - ε / 2)) (Ici 0) := antitoneOn_of_loses fun z hz => by
    have hz' : 0 ≤ z + T := by linarith
    have h2 : HasDerivAt (fun z => z + T) 1 z := (hasDerivAt_id z).add_const T
    have h3 : HasDerivAt (fun z => x (z + T)) ((u (z + T) - l * x (z + T)) * 1) z := (hx (z + T) hz').comp z h2
    have h4 : HasDerivAt (fun z => Real.exp (l * (z + T))) (Real.exp (l * (z + T)) * (l * 1)) z := (h2.const_mul l).exp
    refine ⟨_, ?_, h4.mul (h3.sub_const (ε / 2))⟩
    have h5 : Real.exp (l * (z + T)) * (l * 1) * (x (z + T) - ε / 2) + Real.exp (l * (z + T)) * ((u (z + T) - l * x (z + T)) * 1) =
        Real.exp (l * (z + T)) * (u (z + T) - l * (ε / 2)) := by ring
    rw [h5]
    exact mul_nonpos_of_nonneg_of_nonpos (Real.exp_pos _).le (by linarith [(hT (z + T) (by linarith [show (0:ℝ) ≤ z from hz])).1])
  set a : ℝ := Real.exp (l * T) * (x T - ε / 2) with ha
  have hlim : Tendsto (fun t => a * Real.exp (-(l * t))) atTop (𝓝 (a * 0)) := by
    refine Tendsto.const_mul a (Real.tendsto_exp_atBot.comp ?_)
    exact tendsto_neg_atTop_atBot.comp (tendsto_id.const_mul_atTop hl)
  rw [mul_zero] at hlim
  filter_upwards [hlim.eventually_lt_const (show (0 : ℝ) < ε / 2 by linarith), eventually_ge_atTop T] with t h6 h7
  have h8 := hdec (show (0 : ℝ) ∈ Ici (0 : ℝ) from le_refl (0 : ℝ)) (show t - T ∈ Ici (0 : ℝ) from sub_nonneg.2 h7) (sub_nonneg.2 h7)
  simp only [sub_add_cancel, zero_add] at h8
  rw [← ha] at h8
  have h9 : x t - ε / 2 ≤ a * Real.exp (-(l * t)) := by
    rw [Real.exp_neg, ← div_eq_mul_inv, le_div_iff₀ (Real.exp_pos _), mul_comm]
    exact h8
  linarith

/-- The output of a stable linear filter of first order tends to zero if its input does. -/
theorem tendsto_zero_of_filter {x u : ℝ → ℝ} {l : ℝ} (hl : 0 < l) (hx : ∀ t, 0 ≤ t → HasDerivAt x (u t - l * x t) t)
    (hu : Tendsto u atTop (𝓝 0)) : Tendsto x atTop (𝓝 0) := by
  rw [Metric.tendsto_atTop']
  intro ε hε
  have h1 := filter_upper hl hx hu hε
  have h2 := filter_upper (x := fun t => -x t) (u := fun t => -u t) hl (fun t ht => by
    have := (hx t ht).neg
    refine this.congr_deriv ?_
    ring) (by simpa using hu.neg) hε
  obtain ⟨T, hT⟩ := eventually_atTop.1 (h1.and h2)
  refine ⟨T, fun t ht => ?_⟩
  rw [dist_zero_right, Real.norm_eq_abs, abs_lt]
  obtain ⟨h3, h4⟩ := hT t ht.le
  exact ⟨by linarith, h3⟩

end Thunder
