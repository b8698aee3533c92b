import Verif.Spec.Inertia
import Mathlib.Analysis.SpecialFunctions.Trigonometric.Basic

/-!
# Specification: rotations from roll, pitch, yaw
-/

namespace Thunder.Spec

open Matrix Real

noncomputable section

def axX (t : ℝ) : Matrix (Fin 3) (Fin 3) ℝ := !![1, 0, 0; 0, cos t, -sin t; 0, sin t, cos t]
def axY (t : ℝ) : Matrix (Fin 3) (Fin 3) ℝ := !![cos t, 0, sin t; 0, 1, 0; -sin t, 0, cos t]
def axZ (t : ℝ) : Matrix (Fin 3) (Fin 3) ℝ := !![cos t, -sin t, 0; sin t, cos t, 0; 0, 0, 1]

/-- Fixed-axis roll, pitch, yaw rotation. -/
def rpy (roll pitch yaw : ℝ) : Matrix (Fin 3) (Fin 3) ℝ := axZ yaw * axY pitch * axX roll

/-- Symmetric tensor from its upper triangle `xx, xy, xz, yy, yz, zz`. -/
def symm3 (p : Fin 6 → ℝ) : Matrix (Fin 3) (Fin 3) ℝ := !![p 0, p 1, p 2; p 1, p 3, p 4; p 2, p 4, p 5]

end

end Thunder.Spec
