import Verif.Spec.System

/-!
# Inertia of the joints and energy of the whole robot

Independent of the model: the resistance of a link to its own joint, and the energy of the links, the motors and the springs together.
-/

namespace Thunder.Spec

open Matrix

noncomputable section

/-- What link `i` opposes to its own joint: its mass for a prismatic joint, its moment of inertia about the axis of the joint (the z axis of the link frame)
for a revolute one. -/
def ownInertia (p : ℕ → ℝ) (i : ℕ) : Joint → ℝ
  | .prismatic => mass p i
  | .revolute => inertia p i 2 2 + mass p i * (com p i 0 ^ 2 + com p i 1 ^ 2)

/-- Kinetic energy of the motors. -/
def motorEnergyOf (c : Conf) (w : Fin c.ne → ℝ) : ℝ := 1 / 2 * ∑ e : Fin c.ne, c.Mm e * w e ^ 2

/-- Energy of the springs. -/
def springEnergyOf (c : Conf) (q : Fin c.n → ℝ) (x : Fin c.ne → ℝ) : ℝ :=
  ∑ e : Fin c.ne, springEnergy (fun k => c.K (e * c.kO + k)) c.kO (x e - q (Fin.castLE (ne_le_n c) e))

/-- Energy of links and gravity. -/
def linkEnergyOf [Fl] (c : Conf) (q v : Fin c.n → ℝ) : ℝ := kineticOf c q v + potentialOf c q

/-- Energy of the whole robot. -/
def energyOf [Fl] (c : Conf) (q v : Fin c.n → ℝ) (x w : Fin c.ne → ℝ) : ℝ := linkEnergyOf c q v + motorEnergyOf c w + springEnergyOf c q x

/-- Torques of the motors as torques on all joints. -/
def onLinks (c : Conf) (k : Fin c.ne → ℝ) : Fin c.n → ℝ := fun i => if h : (i : ℕ) < c.ne then k ⟨i, h⟩ else 0

/-- The answer for `f` is the column `v`; where there is no such function, `v` is zero. -/
def ReturnsOrZero (R : String → Robot.Mat → Prop) (f : String) (order : ℕ) {m : ℕ} (v : Fin m → ℝ) : Prop :=
  (0 < order → ReturnsVec R f v) ∧ (order = 0 → v = 0)

end

end Thunder.Spec
