import Verif.Spec.Torque

/-!
# A controller that computes its torques at the times `0, h, 2 h, …` and holds them in between
-/

namespace Thunder.Spec

open Matrix Set

noncomputable section

/-- From time 0 on the mechanism is driven by torques `u t`, which may jump: positions and velocities are continuous, the accelerations are derivatives on
the right. -/
structure DrivenRight [Fl] (c : Conf) (st : ℝ → State c) (u : ℝ → Fin c.n → ℝ) : Prop where
  cq : ∀ i, ContinuousOn (fun z => (st z).q i) (Ici 0)
  cdq : ∀ i, ContinuousOn (fun z => (st z).dq i) (Ici 0)
  q : ∀ t, 0 ≤ t → ∀ i, HasDerivWithinAt (fun z => (st z).q i) ((st t).dq i) (Ici t) t
  dq : ∀ t, 0 ≤ t → ∀ i, HasDerivWithinAt (fun z => (st z).dq i) ((st t).ddq i) (Ici t) t
  law : ∀ t, 0 ≤ t → massOf c (st t).q *ᵥ (st t).ddq + coriolisOf c (st t).q (st t).dq *ᵥ (st t).dq + gravityOf c (st t).q +
    frictionOf c c.dl (st t).dq = u t

/-- Computed torque for following the motion `d`, from the positions `Q k` and velocities `V k` read at time `k h` and the values returned then; the torques
are held until the next reading. -/
def SampledTorque (c : Conf) (h : ℝ) (R : ℕ → String → Robot.Mat → Prop) (Q V : ℕ → Fin c.n → ℝ) (kp kd : Fin c.n → ℝ) (d d' d'' u : ℝ → Fin c.n → ℝ) : Prop :=
  ∀ (k : ℕ) (M C : Matrix (Fin c.n) (Fin c.n) ℝ) (G f : Fin c.n → ℝ), Returns (R k) "M" M → Returns (R k) "C" C → ReturnsVec (R k) "G" G →
    ReturnsOrZero (R k) "dl" c.dlO f → ∀ t, k * h ≤ t → t < (k + 1) * h →
    u t = M *ᵥ (fun i => d'' (k * h) i - kd i * (V k i - d' (k * h) i) - kp i * (Q k i - d (k * h) i)) + C *ᵥ V k + G + f

end

end Thunder.Spec
