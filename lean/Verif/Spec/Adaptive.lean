import Verif.Spec.Balance
import Mathlib.Analysis.Calculus.Deriv.Basic

/-!
# Adaptive control with the Slotine-Li regressor

Independent of the model: the closed loop of a mechanism with unknown bodies and the controller of J.-J. Slotine and W. Li, "On the adaptive control of
robot manipulators" (1987), which is what the regressor `Yr` of the generated class is made for.  The controller knows the geometry and the friction and
works with the values that are returned; `R t` are the answers at time `t`.
-/

namespace Thunder.Spec

open Matrix

noncomputable section

variable [Fl]

/-- The mass matrix of the mechanism with the geometry of the file and the bodies `p`. -/
def massWith (c : Conf) (p : ℕ → ℝ) (q : Fin c.n → ℝ) : Matrix (Fin c.n) (Fin c.n) ℝ := massOf (withDyn c p) q

/-- Its Coriolis matrix. -/
def coriolisWith (c : Conf) (p : ℕ → ℝ) (q v : Fin c.n → ℝ) : Matrix (Fin c.n) (Fin c.n) ℝ := coriolisOf (withDyn c p) q v

/-- Its gravity torques. -/
def gravityWith (c : Conf) (p : ℕ → ℝ) (q : Fin c.n → ℝ) : Fin c.n → ℝ := gravityOf (withDyn c p) q

/-- From time 0 on the mechanism with the geometry of the file and the bodies `p` is driven by the torque `Yr(q, dq, dqr, ddqr) est + dl(dq) - K (dq - dqr)`,
with the values returned for `Yr` and `dl` at each time. -/
structure Controlled (c : Conf) (p : ℕ → ℝ) (st : ℝ → State c) (R : ℝ → String → Robot.Mat → Prop) (K : Matrix (Fin c.n) (Fin c.n) ℝ)
    (est : ℝ → Fin (10 * c.n) → ℝ) : Prop where
  q : ∀ t, 0 ≤ t → ∀ i, HasDerivAt (fun z => (st z).q i) ((st t).dq i) t
  dq : ∀ t, 0 ≤ t → ∀ i, HasDerivAt (fun z => (st z).dq i) ((st t).ddq i) t
  dqr : ∀ t, 0 ≤ t → ∀ i, HasDerivAt (fun z => (st z).dqr i) ((st t).ddqr i) t
  law : ∀ t, 0 ≤ t → ∀ (Y : Matrix (Fin c.n) (Fin (10 * c.n)) ℝ) (f : Fin c.n → ℝ), Returns (R t) "Yr" Y → ReturnsOrZero (R t) "dl" c.dlO f →
    massWith c p (st t).q *ᵥ (st t).ddq + coriolisWith c p (st t).q (st t).dq *ᵥ (st t).dq + gravityWith c p (st t).q +
      frictionOf c c.dl (st t).dq = Y *ᵥ est t + f - K *ᵥ ((st t).dq - (st t).dqr)

omit [Fl] in
/-- From time 0 on the estimate changes by `-Γ Yrᵀ (dq - dqr)`. -/
def Learns (c : Conf) (st : ℝ → State c) (R : ℝ → String → Robot.Mat → Prop) (Γ : Matrix (Fin (10 * c.n)) (Fin (10 * c.n)) ℝ)
    (est : ℝ → Fin (10 * c.n) → ℝ) : Prop :=
  ∀ t, 0 ≤ t → ∀ Y : Matrix (Fin c.n) (Fin (10 * c.n)) ℝ, Returns (R t) "Yr" Y →
    ∀ k, HasDerivAt (fun z => est z k) (-(Γ *ᵥ Yᵀ *ᵥ ((st t).dq - (st t).dqr)) k) t

/-- Half of the quadratic form of the mass matrix in the velocity error, plus half of that of `W` in the error of the estimate. -/
def lyapunov (c : Conf) (p : ℕ → ℝ) (W : Matrix (Fin (10 * c.n)) (Fin (10 * c.n)) ℝ) (s : State c) (e : Fin (10 * c.n) → ℝ) : ℝ :=
  1 / 2 * ((s.dq - s.dqr) ⬝ᵥ massWith c p s.q *ᵥ (s.dq - s.dqr)) + 1 / 2 * (e ⬝ᵥ W *ᵥ e)

end

end Thunder.Spec
