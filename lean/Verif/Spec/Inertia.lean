import Verif.Spec.Dynamics

/-!
# Specification: barycentric inertial parameters

Per link: mass, first moment of mass and inertia tensor at the link-frame origin (parallel-axis theorem).
-/

namespace Thunder.Spec

open Matrix

noncomputable section

/-- Inertia tensor at the frame origin, from the one at the centre of mass. -/
def originInertia (m : ℝ) (c : Fin 3 → ℝ) (I : Matrix (Fin 3) (Fin 3) ℝ) : Matrix (Fin 3) (Fin 3) ℝ :=
  I + m • ((hat c)ᵀ * hat c)

/-- The ten linear parameters of a body: `m, m c, Ixx, Ixy, Ixz, Iyy, Iyz, Izz` with the tensor at the frame origin. -/
def linPar (m : ℝ) (c : Fin 3 → ℝ) (I : Matrix (Fin 3) (Fin 3) ℝ) : ℕ → ℝ
  | 0 => m
  | 1 => m * c 0
  | 2 => m * c 1
  | 3 => m * c 2
  | 4 => originInertia m c I 0 0
  | 5 => originInertia m c I 0 1
  | 6 => originInertia m c I 0 2
  | 7 => originInertia m c I 1 1
  | 8 => originInertia m c I 1 2
  | 9 => originInertia m c I 2 2
  | _ => 0

/-- Linear parameter vector of a chain, ten entries per link. -/
def reg (p : ℕ → ℝ) (k : ℕ) : ℝ := linPar (mass p (k / 10)) (com p (k / 10)) (inertia p (k / 10)) (k % 10)

end

end Thunder.Spec
