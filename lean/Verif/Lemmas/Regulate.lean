import Verif.Lemmas.Lagrange
import Verif.Lemmas.RoundingPos
import Verif.Lib.Decay
import Mathlib.Topology.Algebra.Order.Field
import Mathlib.Topology.Instances.Matrix

/-!
# Damped mechanical systems come to rest at the bottom of their potential

A statement about matrices that depend on the position, used for C79.
-/

open scoped Classical
open Matrix Filter Topology

namespace Thunder

noncomputable section

/-- Continuous positive definite matrices are uniformly so on bounded sets. -/
theorem posdef_below {k n : ℕ} {A : (Fin k → ℝ) → Matrix (Fin n) (Fin n) ℝ} (hc : ∀ i j, Continuous fun q => A q i j)
    (hp : ∀ q v, v ≠ 0 → 0 < v ⬝ᵥ A q *ᵥ v) (b : ℝ) : ∃ ε, 0 < ε ∧ ∀ q, (∀ i, |q i| ≤ b) → ∀ v, ε * (v ⬝ᵥ v) ≤ v ⬝ᵥ A q *ᵥ v := by
  obtain ⟨ε, h0, h⟩ := posdef_near hc hp b
  refine ⟨ε, h0, fun q hq v => ?_⟩
  rcases eq_or_ne v 0 with rfl | hv
  · simp
  have h1 := h q hq (A q - ε • 1) (fun i j => by
    rw [Matrix.sub_apply, Matrix.smul_apply, Matrix.one_apply, sub_sub_cancel_left, abs_neg]
    split_ifs
    · rw [smul_eq_mul, mul_one, abs_of_pos h0]
    · rw [smul_zero, abs_zero]; exact h0.le) v hv
  rw [sub_mulVec, dotProduct_sub, smul_mulVec, one_mulVec, dotProduct_smul, smul_eq_mul] at h1
  linarith

/-- A continuous function of positions and velocities is bounded on bounded sets. -/
theorem bounded_on_box {n : ℕ} {g : (Fin n → ℝ) × (Fin n → ℝ) → ℝ} (hg : Continuous g) (b : ℝ) :
    ∃ B, ∀ q v : Fin n → ℝ, (∀ i, |q i| ≤ b) → (∀ i, |v i| ≤ b) → |g (q, v)| ≤ B := by
  have hK : IsCompact ((Set.univ.pi fun _ : Fin n => Set.Icc (-b) b) ×ˢ (Set.univ.pi fun _ : Fin n => Set.Icc (-b) b)) :=
    (isCompact_univ_pi fun _ => isCompact_Icc).prod (isCompact_univ_pi fun _ => isCompact_Icc)
  obtain ⟨B, hB⟩ := hK.exists_bound_of_continuousOn hg.continuousOn
  exact ⟨B, fun q v hq hv => hB (q, v) ⟨fun i _ => abs_le.1 (hq i), fun i _ => abs_le.1 (hv i)⟩⟩

variable {n : ℕ} {q v a : ℝ → Fin n → ℝ} {M : (Fin n → ℝ) → Matrix (Fin n) (Fin n) ℝ} {C : (Fin n → ℝ) → (Fin n → ℝ) → Matrix (Fin n) (Fin n) ℝ}
  {f : (Fin n → ℝ) → Fin n → ℝ} {kp kd p : Fin n → ℝ}

/-- The energy of the system with springs towards `p` changes by the power of the dampers and of the friction. -/
theorem springs_rate (hs : ∀ q, (M q)ᵀ = M q) {t : ℝ}
    (hM : ∀ i j, HasDerivAt (fun z => M (q z) i j) ((C (q t) (v t) + (C (q t) (v t))ᵀ) i j) t)
    (hq : ∀ i, HasDerivAt (fun z => q z i) (v t i) t) (hv : ∀ i, HasDerivAt (fun z => v z i) (a t i) t)
    (hl : M (q t) *ᵥ a t + C (q t) (v t) *ᵥ v t + f (v t) = fun i => -(kp i * (q t i - p i)) - kd i * v t i) :
    HasDerivAt (fun z => 1 / 2 * (v z ⬝ᵥ M (q z) *ᵥ v z) + 1 / 2 * ∑ i, kp i * (q z i - p i) ^ 2)
      (-(∑ i, kd i * v t i ^ 2) - v t ⬝ᵥ f (v t)) t := by
  have h1 := hasDerivAt_quad (A := fun z => M (q z)) (v := v) hM hv (hs _)
  have h2 : HasDerivAt (fun z => 1 / 2 * ∑ i, kp i * (q z i - p i) ^ 2) (1 / 2 * ∑ i, kp i * (2 * (q t i - p i) * v t i)) t := by
    refine (HasDerivAt.fun_sum fun i _ => ?_).const_mul (1 / 2)
    refine ((((hq i).sub_const (p i)).fun_pow 2).const_mul (kp i)).congr_deriv ?_
    simp
  refine (h1.add h2).congr_deriv ?_
  have h3 : v t ⬝ᵥ (C (q t) (v t))ᵀ *ᵥ v t = v t ⬝ᵥ C (q t) (v t) *ᵥ v t := by
    rw [mulVec_transpose, dotProduct_comm, ← dotProduct_mulVec]
  have h4 : a t ⬝ᵥ M (q t) *ᵥ v t = v t ⬝ᵥ M (q t) *ᵥ a t := by
    rw [dotProduct_mulVec, ← mulVec_transpose, hs, dotProduct_comm]
  have h5 := congrArg (fun w => v t ⬝ᵥ w) hl
  simp only [dotProduct_add] at h5
  have h6 : (v t ⬝ᵥ fun i => -(kp i * (q t i - p i)) - kd i * v t i) = -(1 / 2 * ∑ i, kp i * (2 * (q t i - p i) * v t i)) - ∑ i, kd i * v t i ^ 2 := by
    unfold dotProduct
    rw [Finset.mul_sum, ← Finset.sum_neg_distrib, ← Finset.sum_sub_distrib]
    exact Finset.sum_congr rfl fun i _ => by ring
  rw [h6] at h5
  rw [add_mulVec, dotProduct_add, h3, h4]
  linarith

/-- A mechanical system with positive definite inertia, springs towards `p`, dampers and friction comes to rest at `p`. -/
theorem springs_rest (hs : ∀ q, (M q)ᵀ = M q) (hpos : ∀ q v, v ≠ 0 → 0 < v ⬝ᵥ M q *ᵥ v) (cM : ∀ i j, Continuous fun q => M q i j)
    (cC : ∀ i j, Continuous fun x : (Fin n → ℝ) × (Fin n → ℝ) => C x.1 x.2 i j) (cf : ∀ i, Continuous fun v => f v i) (f0 : f 0 = 0)
    (hf : ∀ v, 0 ≤ v ⬝ᵥ f v)
    (hM : ∀ t, 0 ≤ t → ∀ i j, HasDerivAt (fun z => M (q z) i j) ((C (q t) (v t) + (C (q t) (v t))ᵀ) i j) t)
    (hq : ∀ t, 0 ≤ t → ∀ i, HasDerivAt (fun z => q z i) (v t i) t) (hv : ∀ t, 0 ≤ t → ∀ i, HasDerivAt (fun z => v z i) (a t i) t)
    (hl : ∀ t, 0 ≤ t → M (q t) *ᵥ a t + C (q t) (v t) *ᵥ v t + f (v t) = fun i => -(kp i * (q t i - p i)) - kd i * v t i)
    (h0 : ∀ i, 0 < kp i ∧ 0 < kd i) (i : Fin n) : Tendsto (fun t => q t i) atTop (𝓝 (p i)) ∧ Tendsto (fun t => v t i) atTop (𝓝 0) := by
  set V : ℝ → ℝ := fun z => 1 / 2 * (v z ⬝ᵥ M (q z) *ᵥ v z) + 1 / 2 * ∑ i, kp i * (q z i - p i) ^ 2 with hVdef
  have hrate : ∀ t, 0 ≤ t → HasDerivAt V (-(∑ i, kd i * v t i ^ 2) - v t ⬝ᵥ f (v t)) t := fun t ht =>
    springs_rate hs (hM t ht) (hq t ht) (hv t ht) (hl t ht)
  have hkd : ∀ t i, kd i * v t i ^ 2 ≤ ∑ i, kd i * v t i ^ 2 := fun t i =>
    Finset.single_le_sum (f := fun i => kd i * v t i ^ 2) (fun j _ => mul_nonneg (h0 j).2.le (sq_nonneg _)) (Finset.mem_univ i)
  have hkp : ∀ t i, kp i * (q t i - p i) ^ 2 ≤ ∑ i, kp i * (q t i - p i) ^ 2 := fun t i =>
    Finset.single_le_sum (f := fun i => kp i * (q t i - p i) ^ 2) (fun j _ => mul_nonneg (h0 j).1.le (sq_nonneg _)) (Finset.mem_univ i)
  have hkin : ∀ t, 0 ≤ v t ⬝ᵥ M (q t) *ᵥ v t := by
    intro t
    rcases eq_or_ne (v t) 0 with e | e
    · rw [e, zero_dotProduct]
    · exact (hpos _ _ e).le
  have hanti : AntitoneOn V (Set.Ici 0) := antitoneOn_of_loses fun t ht => ⟨_, by
    have h1 := hkd t i
    have h2 := mul_nonneg (h0 i).2.le (sq_nonneg (v t i))
    have h3 := hf (v t)
    linarith, hrate t ht⟩
  have hle : ∀ t, 0 ≤ t → V t ≤ V 0 := fun t ht => hanti (show (0 : ℝ) ∈ Set.Ici (0 : ℝ) from le_refl (0 : ℝ)) ht ht
  -- positions stay bounded
  have hqb : ∃ b, ∀ t, 0 ≤ t → ∀ i, |q t i| ≤ b := by
    refine ⟨∑ i, (|p i| + Real.sqrt (2 * V 0 / kp i)), fun t ht i => ?_⟩
    have h1 : (q t i - p i) ^ 2 ≤ 2 * V 0 / kp i := by
      rw [le_div_iff₀ (h0 i).1]
      have h2 := hle t ht
      have h3 := hkp t i
      have h4 := hkin t
      rw [hVdef] at h2
      simp only at h2
      rw [hVdef]
      simp only
      linarith
    have h2 : |q t i - p i| ≤ Real.sqrt (2 * V 0 / kp i) := Real.abs_le_sqrt h1
    have h3 : |q t i| ≤ |p i| + Real.sqrt (2 * V 0 / kp i) := by
      have h4 := abs_add_le (q t i - p i) (p i)
      rw [sub_add_cancel] at h4
      linarith
    exact h3.trans (Finset.single_le_sum (f := fun i => |p i| + Real.sqrt (2 * V 0 / kp i))
      (fun j _ => add_nonneg (abs_nonneg _) (Real.sqrt_nonneg _)) (Finset.mem_univ i))
  obtain ⟨b, hqb⟩ := hqb
  obtain ⟨ε, hε, hpd⟩ := posdef_below cM hpos b
  -- velocities stay bounded
  have hvb : ∀ t, 0 ≤ t → ∀ i, |v t i| ≤ Real.sqrt (2 * V 0 / ε) := by
    intro t ht i
    refine Real.abs_le_sqrt ?_
    rw [le_div_iff₀ hε]
    have h1 := hpd (q t) (hqb t ht) (v t)
    have h2 : v t i ^ 2 ≤ v t ⬝ᵥ v t := by
      rw [sq]
      exact Finset.single_le_sum (f := fun i => v t i * v t i) (fun j _ => mul_self_nonneg _) (Finset.mem_univ i)
    have h3 := hle t ht
    have h4 : 0 ≤ ∑ i, kp i * (q t i - p i) ^ 2 := Finset.sum_nonneg fun j _ => mul_nonneg (h0 j).1.le (sq_nonneg _)
    have h5 : v t ⬝ᵥ M (q t) *ᵥ v t ≤ 2 * V 0 := by
      rw [hVdef] at h3
      simp only at h3
      rw [hVdef]
      simp only
      linarith
    nlinarith
  set b' := max b (Real.sqrt (2 * V 0 / ε)) with hb'
  have hqb' : ∀ t, 0 ≤ t → ∀ i, |q t i| ≤ b' := fun t ht i => (hqb t ht i).trans (le_max_left _ _)
  have hvb' : ∀ t, 0 ≤ t → ∀ i, |v t i| ≤ b' := fun t ht i => (hvb t ht i).trans (le_max_right _ _)
  have c1 : ∀ i, Continuous fun x : (Fin n → ℝ) × (Fin n → ℝ) => x.1 i := fun i => (continuous_apply i).comp continuous_fst
  have c2 : ∀ i, Continuous fun x : (Fin n → ℝ) × (Fin n → ℝ) => x.2 i := fun i => (continuous_apply i).comp continuous_snd
  have cCv : ∀ i, Continuous fun x : (Fin n → ℝ) × (Fin n → ℝ) => (C x.1 x.2 *ᵥ x.2) i := fun i => by
    show Continuous fun x : (Fin n → ℝ) × (Fin n → ℝ) => ∑ j, C x.1 x.2 i j * x.2 j
    exact continuous_finsetSum _ fun j _ => (cC i j).mul (c2 j)
  -- accelerations stay bounded
  have hab : ∀ i, ∃ B, ∀ t, 0 ≤ t → |a t i| ≤ B := by
    intro i
    have cMm : Continuous fun x : (Fin n → ℝ) × (Fin n → ℝ) => M x.1 := continuous_matrix fun i j => (cM i j).comp continuous_fst
    have cr : ∀ j, Continuous fun x : (Fin n → ℝ) × (Fin n → ℝ) =>
        -(kp j * (x.1 j - p j)) - kd j * x.2 j - (C x.1 x.2 *ᵥ x.2) j - f x.2 j := fun j =>
      ((((continuous_const.mul ((c1 j).sub continuous_const)).neg).sub (continuous_const.mul (c2 j))).sub (cCv j)).sub ((cf j).comp continuous_snd)
    have hF : Continuous fun x : (Fin n → ℝ) × (Fin n → ℝ) => ((M x.1).det)⁻¹ * ∑ j, (M x.1).adjugate i j *
        (-(kp j * (x.1 j - p j)) - kd j * x.2 j - (C x.1 x.2 *ᵥ x.2) j - f x.2 j) := by
      refine (cMm.matrix_det.inv₀ fun x => det_of_posdef (hpos x.1)).mul (continuous_finsetSum _ fun j _ => Continuous.mul ?_ (cr j))
      exact cMm.matrix_adjugate.matrix_elem i j
    obtain ⟨B, hB⟩ := bounded_on_box hF b'
    refine ⟨B, fun t ht => ?_⟩
    have h1 := hB (q t) (v t) (hqb' t ht) (hvb' t ht)
    have h2 : (M (q t)).adjugate *ᵥ (M (q t) *ᵥ a t) = (M (q t)).det • a t := by
      rw [mulVec_mulVec, adjugate_mul, smul_mulVec, one_mulVec]
    have h3 : ∀ j, (M (q t) *ᵥ a t) j = -(kp j * (q t j - p j)) - kd j * v t j - (C (q t) (v t) *ᵥ v t) j - f (v t) j := fun j => by
      have := congrFun (hl t ht) j
      simp only [Pi.add_apply] at this
      linarith
    have h4 : ∑ j, (M (q t)).adjugate i j * (-(kp j * (q t j - p j)) - kd j * v t j - (C (q t) (v t) *ᵥ v t) j - f (v t) j) =
        (M (q t)).det * a t i := by
      have h5 := congrFun h2 i
      rw [Pi.smul_apply, smul_eq_mul] at h5
      rw [← h5]
      exact Finset.sum_congr rfl fun j _ => congrArg _ (h3 j).symm
    simp only [h4] at h1
    rwa [inv_mul_cancel_left₀ (det_of_posdef (hpos (q t)))] at h1
  -- velocities die out
  have hv0 : ∀ i, Tendsto (fun t => v t i) atTop (𝓝 0) := by
    intro i
    obtain ⟨B, hB⟩ := hab i
    refine tendsto_zero_of_pays (V := V) (h0 i).2 (fun t ht => ?_) (fun t ht => ⟨_, ?_, hrate t ht⟩) fun t ht => ⟨_, hB t ht, hv t ht i⟩
    · exact add_nonneg (mul_nonneg (by norm_num) (hkin t)) (mul_nonneg (by norm_num)
        (Finset.sum_nonneg fun j _ => mul_nonneg (h0 j).1.le (sq_nonneg _)))
    · have h1 := hkd t i
      have h3 := hf (v t)
      linarith
  refine ⟨?_, hv0 i⟩
  -- so do the momenta, and with them the errors
  have hprod : ∀ {g : (Fin n → ℝ) × (Fin n → ℝ) → ℝ}, Continuous g → ∀ j, Tendsto (fun t => g (q t, v t) * v t j) atTop (𝓝 0) := by
    intro g hg j
    obtain ⟨B, hB⟩ := bounded_on_box hg b'
    refine bdd_le_mul_tendsto_zero' B ?_ (hv0 j)
    filter_upwards [eventually_ge_atTop (0 : ℝ)] with t ht using hB _ _ (hqb' t ht) (hvb' t ht)
  have hsum : ∀ {g : Fin n → (Fin n → ℝ) × (Fin n → ℝ) → ℝ}, (∀ j, Continuous (g j)) → Tendsto (fun t => ∑ j, g j (q t, v t) * v t j) atTop (𝓝 0) := by
    intro g hg
    have := tendsto_finsetSum (Finset.univ : Finset (Fin n)) fun j _ => hprod (hg j) j
    simpa using this
  have hw : Tendsto (fun t => ∑ j, M (q t) i j * v t j) atTop (𝓝 0) := hsum (g := fun j x => M x.1 i j) fun j => (cM i j).comp continuous_fst
  have hCt : Tendsto (fun t => ∑ j, C (q t) (v t) j i * v t j) atTop (𝓝 0) := hsum (g := fun j x => C x.1 x.2 j i) fun j => cC j i
  have hft : Tendsto (fun t => f (v t) i) atTop (𝓝 0) := by
    have h1 : Tendsto v atTop (𝓝 0) := tendsto_pi_nhds.2 hv0
    have h2 := ((cf i).tendsto 0).comp h1
    rw [f0] at h2
    exact h2
  have hx : Tendsto (fun t => (q t i - p i) + ∑ j, M (q t) i j * v t j) atTop (𝓝 0) := by
    refine tendsto_zero_of_filter (h0 i).1 (u := fun t => v t i + ∑ j, C (q t) (v t) j i * v t j - f (v t) i - kd i * v t i + kp i * ∑ j, M (q t) i j * v t j)
      (fun t ht => ?_) ?_
    · have h1 : HasDerivAt (fun z => ∑ j, M (q z) i j * v z j) (∑ j, ((C (q t) (v t) + (C (q t) (v t))ᵀ) i j * v t j + M (q t) i j * a t j)) t :=
        HasDerivAt.fun_sum fun j _ => (hM t ht i j).mul (hv t ht j)
      refine (((hq t ht i).sub_const (p i)).add h1).congr_deriv ?_
      have h2 := congrFun (hl t ht) i
      simp only [Pi.add_apply] at h2
      have h3 : ∑ j, ((C (q t) (v t) + (C (q t) (v t))ᵀ) i j * v t j + M (q t) i j * a t j) =
          (C (q t) (v t) *ᵥ v t) i + ∑ j, C (q t) (v t) j i * v t j + (M (q t) *ᵥ a t) i := by
        rw [Finset.sum_add_distrib]
        refine congrArg (· + _) ?_
        rw [show (C (q t) (v t) *ᵥ v t) i = ∑ j, C (q t) (v t) i j * v t j from rfl, ← Finset.sum_add_distrib]
        exact Finset.sum_congr rfl fun j _ => add_mul _ _ _
      rw [h3]
      linarith
    · have := ((((hv0 i).add hCt).sub hft).sub ((hv0 i).const_mul (kd i))).add (hw.const_mul (kp i))
      simpa using this
  have h1 := (hx.sub hw).add_const (p i)
  simpa using h1

end

end Thunder
