import Verif.Spec.Adaptive

/-!
# Two controllers that use the model

Independent of the model of the code: the closed loops of a mechanism with a controller that computes its torques from the values returned for `M`, `C`,
`G` and `dl`; `R t` are the answers at time `t`.
-/

namespace Thunder.Spec

open Matrix

noncomputable section

variable [Fl]

/-- From time 0 on the mechanism of the file is driven by torques `u t`. -/
structure Driven (c : Conf) (st : ℝ → State c) (u : ℝ → Fin c.n → ℝ) : Prop where
  q : ∀ t, 0 ≤ t → ∀ i, HasDerivAt (fun z => (st z).q i) ((st t).dq i) t
  dq : ∀ t, 0 ≤ t → ∀ i, HasDerivAt (fun z => (st z).dq i) ((st t).ddq i) t
  law : ∀ t, 0 ≤ t → massOf c (st t).q *ᵥ (st t).ddq + coriolisOf c (st t).q (st t).dq *ᵥ (st t).dq + gravityOf c (st t).q +
    frictionOf c c.dl (st t).dq = u t

omit [Fl] in
/-- Computed torque: `u = M a + C dq + G + dl` with the values returned, where `a` is the acceleration wanted. -/
def ComputedTorque (c : Conf) (st : ℝ → State c) (R : ℝ → String → Robot.Mat → Prop) (a u : ℝ → Fin c.n → ℝ) : Prop :=
  ∀ t, 0 ≤ t → ∀ (M C : Matrix (Fin c.n) (Fin c.n) ℝ) (G f : Fin c.n → ℝ), Returns (R t) "M" M → Returns (R t) "C" C → ReturnsVec (R t) "G" G →
    ReturnsOrZero (R t) "dl" c.dlO f → u t = M *ᵥ a t + C *ᵥ (st t).dq + G + f

omit [Fl] in
/-- The acceleration wanted for following the motion `d`: that of `d`, corrected by the errors of position and velocity. -/
def Follows (c : Conf) (st : ℝ → State c) (kp kd : Fin c.n → ℝ) (d d' d'' a : ℝ → Fin c.n → ℝ) : Prop :=
  ∀ t, 0 ≤ t → ∀ i, a t i = d'' t i - kd i * ((st t).dq i - d' t i) - kp i * ((st t).q i - d t i)

omit [Fl] in
/-- Proportional and derivative feedback with compensation of gravity: `u = G - kp (q - d) - kd dq` with the value returned for `G`. -/
def GravityCompensated (c : Conf) (st : ℝ → State c) (R : ℝ → String → Robot.Mat → Prop) (kp kd d : Fin c.n → ℝ) (u : ℝ → Fin c.n → ℝ) : Prop :=
  ∀ t, 0 ≤ t → ∀ G : Fin c.n → ℝ, ReturnsVec (R t) "G" G → ∀ i, u t i = G i - kp i * ((st t).q i - d i) - kd i * (st t).dq i

end

end Thunder.Spec
