import Verif.Spec.Rounding
import Verif.Spec.Torque

/-!
# Simulation by the method of Euler
-/

open scoped Classical
open Matrix

namespace Thunder.Spec

noncomputable section

/-- The state `s` with other positions and velocities. -/
def posed {c : Conf} (s : State c) (q v : Fin c.n → ℝ) : State c := { s with q := q, dq := v }

/-- Positions `Q`, velocities `V` and accelerations `A` at the times `0, h, 2 h, …`: the accelerations solve `M A + C V + G + dl = τ` with the values returned
for this step, up to `r`, and the method of Euler gives the next positions and velocities, up to `h r`. -/
structure Simulates (c : Conf) (R : ℕ → String → Robot.Mat → Prop) (τ : ℝ → Fin c.n → ℝ) (h r : ℝ) (Q V A : ℕ → Fin c.n → ℝ) : Prop where
  law : ∀ k (M C : Matrix (Fin c.n) (Fin c.n) ℝ) (G f : Fin c.n → ℝ), Returns (R k) "M" M → Returns (R k) "C" C → ReturnsVec (R k) "G" G →
    ReturnsOrZero (R k) "dl" c.dlO f → ∀ i, |(M *ᵥ A k + C *ᵥ V k + G + f) i - τ (k * h) i| ≤ r
  q : ∀ k i, |Q (k + 1) i - (Q k i + h * V k i)| ≤ h * r
  v : ∀ k i, |V (k + 1) i - (V k i + h * A k i)| ≤ h * r

end

end Thunder.Spec
