import Verif.Spec.Returned

/-!
# Rigid motions of a mechanism and of its tool
-/

namespace Thunder.Spec

open Matrix

noncomputable section

/-- The rotation `R` applied to the linear and to the angular part of a twist. -/
def turned (R : Matrix (Fin 3) (Fin 3) ℝ) : Matrix (Fin 6) (Fin 6) ℝ :=
  !![R 0 0, R 0 1, R 0 2, 0, 0, 0; R 1 0, R 1 1, R 1 2, 0, 0, 0; R 2 0, R 2 1, R 2 2, 0, 0, 0;
    0, 0, 0, R 0 0, R 0 1, R 0 2; 0, 0, 0, R 1 0, R 1 1, R 1 2; 0, 0, 0, R 2 0, R 2 1, R 2 2]

/-- The mechanism `c` with another tool. -/
def tooled (c : Conf) (fe : ℕ → ℤ) (e : ℕ → ℝ) : Conf := { c with fee := fe, ee := e }

/-- The same values of the variables for the mechanism with another tool. -/
def State.tooled {c : Conf} (s : State c) (fe : ℕ → ℤ) (e : ℕ → ℝ) : State (tooled c fe e) :=
  ⟨s.q, s.dq, s.ddq, s.d3q, s.dqr, s.ddqr, s.w, s.x, s.dx, s.ddx⟩

end

end Thunder.Spec
