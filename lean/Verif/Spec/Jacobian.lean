import Verif.Spec.Kinematics
import Mathlib.Analysis.Calculus.Deriv.Basic

/-!
# Specification: geometric Jacobians
-/

namespace Thunder.Spec

open Matrix

noncomputable section

/-- Linear rows of a 6-row Jacobian. -/
def lin {n : ℕ} (J : Matrix (Fin 6) (Fin n) ℝ) : Matrix (Fin 3) (Fin n) ℝ := J.submatrix (Fin.castLE (by omega)) id
/-- Angular rows of a 6-row Jacobian. -/
def angRows {n : ℕ} (J : Matrix (Fin 6) (Fin n) ℝ) : Matrix (Fin 3) (Fin n) ℝ := J.submatrix (Fin.natAdd 3) id

/-- The linear rows of `J` are the partial derivatives, with respect to the joint coordinates, of the origin of the frame `T`. -/
def IsLinearJacobian {n : ℕ} (T : (Fin n → ℝ) → Matrix (Fin 4) (Fin 4) ℝ) (q : Fin n → ℝ)
    (J : Matrix (Fin 6) (Fin n) ℝ) : Prop :=
  ∀ (j : Fin n) (a : Fin 3), HasDerivAt (fun t => pos (T (Function.update q j t)) a) (lin J a j) (q j)

/-- The angular rows of `J` are the angular velocities of the frame `T` (world axes) per unit joint velocity:
`∂R/∂q_j = hat(ω_j) R`. -/
def IsAngularJacobian {n : ℕ} (T : (Fin n → ℝ) → Matrix (Fin 4) (Fin 4) ℝ) (q : Fin n → ℝ)
    (J : Matrix (Fin 6) (Fin n) ℝ) : Prop :=
  ∀ (j : Fin n) (a b : Fin 3), HasDerivAt (fun t => rot (T (Function.update q j t)) a b)
    ((hat (fun c => angRows J c j) * rot (T q)) a b) (q j)

end

end Thunder.Spec
