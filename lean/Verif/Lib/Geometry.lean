import Mathlib.Data.Real.Basic
import Mathlib.LinearAlgebra.Matrix.Determinant.Basic
import Mathlib.LinearAlgebra.Matrix.Adjugate
import Mathlib.LinearAlgebra.Matrix.Notation
import Mathlib.LinearAlgebra.Matrix.NonsingularInverse
import Mathlib.Tactic.LinearCombination

/-!
# Rotation matrices and skew matrices over the reals

Standard facts used by the kinematic and dynamic properties; nothing here refers to the repository.
-/

namespace Thunder

open Matrix

/-- Cross-product matrix: `hat v * w = v × w`. -/
def hat (v : Fin 3 → ℝ) : Matrix (Fin 3) (Fin 3) ℝ :=
  !![0, -v 2, v 1; v 2, 0, -v 0; -v 1, v 0, 0]

/-- Proper rotation matrix. -/
structure IsRot (R : Matrix (Fin 3) (Fin 3) ℝ) : Prop where
  orth : Rᵀ * R = 1
  det : R.det = 1

theorem hat_add (v w : Fin 3 → ℝ) : hat (v + w) = hat v + hat w := by
  ext i j; fin_cases i <;> fin_cases j <;> simp [hat] <;> ring
theorem hat_smul (c : ℝ) (v : Fin 3 → ℝ) : hat (c • v) = c • hat v := by
  ext i j; fin_cases i <;> fin_cases j <;> simp [hat]
@[simp] theorem hat_zero : hat 0 = 0 := by
  ext i j; fin_cases i <;> fin_cases j <;> simp [hat]
theorem hat_transpose (v : Fin 3 → ℝ) : (hat v)ᵀ = - hat v := by
  ext i j; fin_cases i <;> fin_cases j <;> simp [hat]
theorem hat_self (v : Fin 3 → ℝ) : hat v *ᵥ v = 0 := by
  ext i; fin_cases i <;> simp [hat, mulVec, dotProduct, Fin.sum_univ_three] <;> ring
theorem hat_anticomm (v w : Fin 3 → ℝ) : hat v *ᵥ w = - (hat w *ᵥ v) := by
  ext i; fin_cases i <;> simp [hat, mulVec, dotProduct, Fin.sum_univ_three] <;> ring
theorem hat_sum {ι : Type*} (s : Finset ι) (f : ι → Fin 3 → ℝ) : hat (∑ i ∈ s, f i) = ∑ i ∈ s, hat (f i) := by
  classical
  induction s using Finset.induction_on with
  | empty => simp
  | insert a s ha ih => rw [Finset.sum_insert ha, Finset.sum_insert ha, hat_add, ih]

theorem hat_dot_self (v w : Fin 3 → ℝ) : w ⬝ᵥ hat v *ᵥ w = 0 := by
  simp [hat, mulVec, dotProduct, Fin.sum_univ_three]; ring

/-- Cofactor identity, valid for every 3×3 matrix. -/
theorem mul_hat_mul_transpose (R : Matrix (Fin 3) (Fin 3) ℝ) (v : Fin 3 → ℝ) :
    R * hat v * Rᵀ = hat ((R.adjugate)ᵀ *ᵥ v) := by
  ext i j
  fin_cases i <;> fin_cases j <;>
    simp [hat, mul_apply, mulVec, dotProduct, Fin.sum_univ_three, adjugate_fin_three] <;> ring

namespace IsRot

variable {R S : Matrix (Fin 3) (Fin 3) ℝ}

theorem orth' (h : IsRot R) : R * Rᵀ = 1 := mul_eq_one_comm.mp h.orth

theorem adjugate (h : IsRot R) : R.adjugate = Rᵀ := by
  have h1 : R.adjugate * R = 1 := by rw [adjugate_mul, h.det, one_smul]
  calc R.adjugate = R.adjugate * (R * Rᵀ) := by rw [h.orth', mul_one]
    _ = Rᵀ := by rw [← mul_assoc, h1, one_mul]

/-- Rotations commute with the cross product. -/
theorem hat_conj (h : IsRot R) (v : Fin 3 → ℝ) : R * hat v * Rᵀ = hat (R *ᵥ v) := by
  rw [mul_hat_mul_transpose, h.adjugate, transpose_transpose]

theorem mul_hat (h : IsRot R) (v : Fin 3 → ℝ) : R * hat v = hat (R *ᵥ v) * R := by
  rw [← h.hat_conj, mul_assoc, h.orth, mul_one]

theorem mul (hR : IsRot R) (hS : IsRot S) : IsRot (R * S) where
  orth := by
    rw [transpose_mul]
    calc Sᵀ * Rᵀ * (R * S) = Sᵀ * (Rᵀ * R) * S := by simp only [mul_assoc]
      _ = 1 := by rw [hR.orth, mul_one, hS.orth]
  det := by rw [det_mul, hR.det, hS.det, one_mul]

theorem one : IsRot (1 : Matrix (Fin 3) (Fin 3) ℝ) := ⟨by simp, by simp⟩

end IsRot

theorem isRot_x {c s : ℝ} (h : c ^ 2 + s ^ 2 = 1) : IsRot !![1, 0, 0; 0, c, -s; 0, s, c] where
  orth := by
    ext i j
    fin_cases i <;> fin_cases j <;> simp [mul_apply, Fin.sum_univ_three] <;>
      first | linear_combination h | ring
  det := by simp [det_fin_three]; linear_combination h

theorem isRot_y {c s : ℝ} (h : c ^ 2 + s ^ 2 = 1) : IsRot !![c, 0, s; 0, 1, 0; -s, 0, c] where
  orth := by
    ext i j
    fin_cases i <;> fin_cases j <;> simp [mul_apply, Fin.sum_univ_three] <;>
      first | linear_combination h | ring
  det := by simp [det_fin_three]; linear_combination h

theorem isRot_z {c s : ℝ} (h : c ^ 2 + s ^ 2 = 1) : IsRot !![c, -s, 0; s, c, 0; 0, 0, 1] where
  orth := by
    ext i j
    fin_cases i <;> fin_cases j <;> simp [mul_apply, Fin.sum_univ_three] <;>
      first | linear_combination h | ring
  det := by simp [det_fin_three]; linear_combination h

end Thunder
