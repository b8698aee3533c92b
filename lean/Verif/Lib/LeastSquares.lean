import Mathlib.Data.Real.Basic
import Mathlib.LinearAlgebra.Matrix.NonsingularInverse
import Mathlib.LinearAlgebra.Matrix.ToLinearEquiv
import Mathlib.LinearAlgebra.Matrix.DotProduct
import Mathlib.Algebra.Order.Star.Real

/-!
# Damped least squares
-/

namespace Thunder

open Matrix

variable {m n : ℕ}

/-- Damped least-squares cost `|J x − v|² + μ |x|²`. -/
def dampedCost (J : Matrix (Fin m) (Fin n) ℝ) (μ : ℝ) (v : Fin m → ℝ) (x : Fin n → ℝ) : ℝ :=
  (J *ᵥ x - v) ⬝ᵥ (J *ᵥ x - v) + μ * (x ⬝ᵥ x)

theorem dot_self_nonneg {k : ℕ} (x : Fin k → ℝ) : 0 ≤ x ⬝ᵥ x :=
  Finset.sum_nonneg fun i _ => mul_self_nonneg (x i)

theorem dot_self_eq_zero {k : ℕ} {x : Fin k → ℝ} (h : x ⬝ᵥ x = 0) : x = 0 := by
  funext i
  have := (Finset.sum_eq_zero_iff_of_nonneg (fun i _ => mul_self_nonneg (x i))).mp h i (Finset.mem_univ i)
  exact mul_self_eq_zero.mp this

theorem isUnit_damped (J : Matrix (Fin m) (Fin n) ℝ) {μ : ℝ} (hμ : 0 < μ) :
    IsUnit (J * Jᵀ + μ • (1 : Matrix (Fin m) (Fin m) ℝ)).det := by
  rw [isUnit_iff_ne_zero]
  intro h
  obtain ⟨v, hv, hz⟩ := Matrix.exists_mulVec_eq_zero_iff.mpr h
  apply hv
  apply dot_self_eq_zero
  have h1 : v ⬝ᵥ ((J * Jᵀ + μ • (1 : Matrix (Fin m) (Fin m) ℝ)) *ᵥ v) = 0 := by rw [hz]; simp
  rw [Matrix.add_mulVec, dotProduct_add, Matrix.smul_mulVec, Matrix.one_mulVec, dotProduct_smul, ← Matrix.mulVec_mulVec,
    Matrix.dotProduct_mulVec, ← Matrix.mulVec_transpose, smul_eq_mul] at h1
  have h2 := dot_self_nonneg (Jᵀ *ᵥ v)
  have h3 := dot_self_nonneg v
  nlinarith

/-- The inverse is bounded by that of the damping. -/
theorem inv_damped_le (J : Matrix (Fin m) (Fin n) ℝ) {μ : ℝ} (hμ : 0 < μ) (k l : Fin m) :
    |(J * Jᵀ + μ • (1 : Matrix (Fin m) (Fin m) ℝ))⁻¹ k l| ≤ 1 / μ := by
  set S := J * Jᵀ + μ • (1 : Matrix (Fin m) (Fin m) ℝ) with hS
  set w : Fin m → ℝ := fun i => S⁻¹ i l with hw
  have h0 : S *ᵥ w = Pi.single l 1 := by
    funext i
    have h2 := congrFun (congrFun (Matrix.mul_nonsing_inv S (isUnit_damped J hμ)) i) l
    rw [Matrix.mul_apply, Matrix.one_apply] at h2
    rw [Pi.single_apply]
    exact h2
  have h1 : w ⬝ᵥ (S *ᵥ w) = w l := by rw [h0, dotProduct_single, mul_one]
  rw [hS, Matrix.add_mulVec, dotProduct_add, Matrix.smul_mulVec, Matrix.one_mulVec, dotProduct_smul, ← Matrix.mulVec_mulVec,
    Matrix.dotProduct_mulVec, ← Matrix.mulVec_transpose, smul_eq_mul] at h1
  have h2 := dot_self_nonneg (Jᵀ *ᵥ w)
  have h3 : ∀ i, w i * w i ≤ w ⬝ᵥ w := fun i => Finset.single_le_sum (f := fun i => w i * w i) (fun i _ => mul_self_nonneg (w i)) (Finset.mem_univ i)
  have h4 : w l ≤ 1 / μ := by
    rw [le_div_iff₀ hμ]
    have h5 : μ * (w l * w l) ≤ w l := by nlinarith [h3 l]
    by_contra h
    have h6 : 0 < w l := pos_of_mul_pos_left (one_pos.trans (not_le.1 h)) hμ.le
    nlinarith
  rw [show S⁻¹ k l = w k from rfl]
  refine abs_le_of_sq_le_sq ?_ (by positivity)
  have h5 : μ * (w k * w k) ≤ 1 / μ := by nlinarith [h3 k]
  rw [div_pow, one_pow, sq, sq, le_div_iff₀ (by positivity)]
  rw [le_div_iff₀ hμ] at h5
  nlinarith

/-- The damped pseudo-inverse solution. -/
noncomputable def dampedSol (J : Matrix (Fin m) (Fin n) ℝ) (μ : ℝ) (v : Fin m → ℝ) : Fin n → ℝ :=
  (Jᵀ * (J * Jᵀ + μ • (1 : Matrix (Fin m) (Fin m) ℝ))⁻¹) *ᵥ v

theorem dampedSol_normal (J : Matrix (Fin m) (Fin n) ℝ) {μ : ℝ} (hμ : 0 < μ) (v : Fin m → ℝ) :
    Jᵀ *ᵥ (J *ᵥ dampedSol J μ v - v) + μ • dampedSol J μ v = 0 := by
  have hu := isUnit_damped J hμ
  set A := J * Jᵀ + μ • (1 : Matrix (Fin m) (Fin m) ℝ) with hA
  set y := A⁻¹ *ᵥ v with hy
  have hx : dampedSol J μ v = Jᵀ *ᵥ y := by rw [dampedSol, ← Matrix.mulVec_mulVec]
  have hAy : A *ᵥ y = v := by rw [hy, Matrix.mulVec_mulVec, Matrix.mul_nonsing_inv A hu, Matrix.one_mulVec]
  have hJ : J *ᵥ (Jᵀ *ᵥ y) - v = -(μ • y) := by
    rw [← hAy, hA, Matrix.add_mulVec, Matrix.smul_mulVec, Matrix.one_mulVec, Matrix.mulVec_mulVec]
    abel
  rw [hx, hJ, Matrix.mulVec_neg, Matrix.mulVec_smul]
  abel

theorem dampedCost_sub (J : Matrix (Fin m) (Fin n) ℝ) {μ : ℝ} (hμ : 0 < μ) (v : Fin m → ℝ) (x : Fin n → ℝ) :
    dampedCost J μ v x = dampedCost J μ v (dampedSol J μ v) +
      ((J *ᵥ (x - dampedSol J μ v)) ⬝ᵥ (J *ᵥ (x - dampedSol J μ v)) +
        μ * ((x - dampedSol J μ v) ⬝ᵥ (x - dampedSol J μ v))) := by
  have hn := dampedSol_normal J hμ v
  set s := dampedSol J μ v
  obtain ⟨e, rfl⟩ : ∃ e, x = s + e := ⟨x - s, by abel⟩
  have h1 : (Jᵀ *ᵥ (J *ᵥ s - v) + μ • s) ⬝ᵥ e = 0 := by rw [hn]; simp
  rw [add_dotProduct, smul_dotProduct, smul_eq_mul, Matrix.mulVec_transpose, ← Matrix.dotProduct_mulVec] at h1
  have e1 : s + e - s = e := by abel
  have e2 : J *ᵥ (s + e) - v = (J *ᵥ s - v) + J *ᵥ e := by rw [Matrix.mulVec_add]; abel
  rw [dampedCost, dampedCost, e1, e2, add_dotProduct, dotProduct_add, dotProduct_add, add_dotProduct, dotProduct_add,
    dotProduct_add, dotProduct_comm (J *ᵥ e) (J *ᵥ s - v), dotProduct_comm e s]
  linarith

theorem dampedSol_min (J : Matrix (Fin m) (Fin n) ℝ) {μ : ℝ} (hμ : 0 < μ) (v : Fin m → ℝ) (x : Fin n → ℝ)
    (hx : x ≠ dampedSol J μ v) : dampedCost J μ v (dampedSol J μ v) < dampedCost J μ v x := by
  rw [dampedCost_sub J hμ v x]
  have h1 := dot_self_nonneg (J *ᵥ (x - dampedSol J μ v))
  have h2 := dot_self_nonneg (x - dampedSol J μ v)
  have h3 : (x - dampedSol J μ v) ⬝ᵥ (x - dampedSol J μ v) ≠ 0 := fun h => hx (sub_eq_zero.mp (dot_self_eq_zero h))
  have h4 := lt_of_le_of_ne h2 (Ne.symm h3)
  have h5 := mul_pos hμ h4
  linarith

end Thunder
