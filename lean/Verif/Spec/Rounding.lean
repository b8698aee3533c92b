import Verif.Model.Rounding
import Verif.Spec.System

/-!
# Answers with rounding errors
-/

open scoped Classical

namespace Thunder.Spec

noncomputable section

/-- The variables of motion and the symbolic parameters are at most `b` in absolute value. -/
structure Within (b : ℝ) (c : Conf) (s : State c) : Prop where
  q : ∀ i, |s.q i| ≤ b
  dq : ∀ i, |s.dq i| ≤ b
  ddq : ∀ i, |s.ddq i| ≤ b
  d3q : ∀ i, |s.d3q i| ≤ b
  dqr : ∀ i, |s.dqr i| ≤ b
  ddqr : ∀ i, |s.ddqr i| ≤ b
  w : ∀ i, |s.w i| ≤ b
  x : ∀ i, |s.x i| ≤ b
  dx : ∀ i, |s.dx i| ≤ b
  ddx : ∀ i, |s.ddx i| ≤ b
  dh : ∀ i < 4 * c.n, c.fdh i ≠ 0 → |c.dh i| ≤ b
  w2l : ∀ i < 6, c.fw2l i ≠ 0 → |c.w2l i| ≤ b
  ee : ∀ i < 6, c.fee i ≠ 0 → |c.ee i| ≤ b
  g : ∀ i < 3, c.fg i ≠ 0 → |c.g i| ≤ b
  dyn : ∀ i < 10 * c.n, c.fdyn i ≠ 0 → |c.dyn i| ≤ b
  dl : ∀ i < c.n * c.dlO, c.fdl i ≠ 0 → |c.dl i| ≤ b
  K : ∀ i < c.ne * c.kO, c.fK i ≠ 0 → |c.K i| ≤ b
  D : ∀ i < c.ne * c.dO, c.fD i ≠ 0 → |c.D i| ≤ b
  Dm : ∀ i < c.ne * c.dmO, c.fDm i ≠ 0 → |c.Dm i| ≤ b
  Mm : ∀ i < c.ne, c.fMm i ≠ 0 → |c.Mm i| ≤ b

variable {u : ℝ}

/-- The answer of `get` on the robot `r` when the values are computed by the machine `m`. -/
def answersOn (m : Machine u) (r : Robot) (f : String) (mat : Robot.Mat) : Prop := ∃ r', Robot.getOn m f r = .ok mat r'

/-- The answer of the getter `get_<f>` when the values are computed by the machine `m`. -/
def classAnswersOn (m : Machine u) (g : Robot) (o : Wrap.Obj) (f : String) (mat : Robot.Mat) : Prop := Wrap.getterOn m g f o = .value mat

/-- A robot, or an object of the generated class, with its answers in exact arithmetic (`R`) and on the machine `m` (`R'`). -/
inductive OnMachine [Fl] (m : Machine u) (y : Yaml) (c : Conf) (s : State c) : (String → Robot.Mat → Prop) → (String → Robot.Mat → Prop) → Prop
  | robot {r : Robot} (h : Running y c s r) : OnMachine m y c s (answers r) (answersOn m r)
  | generated {g : Robot} {o : Wrap.Obj} (h : Generated y c s g o) : OnMachine m y c s (classAnswers g o) (classAnswersOn m g o)

/-- The answer is a matrix whose entries differ from those of `A` by at most `ε`. -/
def ReturnsNear (ε : ℝ) (R : String → Robot.Mat → Prop) (f : String) {m n : ℕ} (A : Matrix (Fin m) (Fin n) ℝ) : Prop :=
  ∃ mat, R f mat ∧ mat.rows = m ∧ mat.cols = n ∧ mat.data.length = m * n ∧
    ∀ (i : Fin m) (j : Fin n), ∃ x, mat.data[(i : ℕ) + m * j]? = some (some x) ∧ |x - A i j| ≤ ε

end

end Thunder.Spec
