import Verif.Spec.System

/-!
# What is returned in every state

`Spec/System.lean` says what one robot, or one object of the generated class, answers in its present state.  Properties that compare several states need
the answers in all of them.
-/

namespace Thunder.Spec

open Matrix Robot

/-- `y` is a well-formed file whose mechanism is `c` up to the values of the symbolic parameters. -/
def Tunes (y : Yaml) (c : Conf) : Prop := ∃ c₀, Describes y c₀ ∧ JointsOk c₀ ∧ Retuned c₀ c

/-- Every robot built from the file `y`, and every object of the class generated from it, whose symbolic parameters are those of `c`, answers the question
`f` with `F s` when its variables of motion are `s`. -/
def Law [Fl] (y : Yaml) (c : Conf) (f : String) {m n : ℕ} (F : State c → Matrix (Fin m) (Fin n) ℝ) : Prop :=
  ∀ (s : State c) (R : String → Mat → Prop), Source y c s R → Returns R f (F s)

/-- The same for a column. -/
def LawVec [Fl] (y : Yaml) (c : Conf) (f : String) {m : ℕ} (F : State c → Fin m → ℝ) : Prop :=
  ∀ (s : State c) (R : String → Mat → Prop), Source y c s R → ReturnsVec R f (F s)

/-- The mechanism `c` mounted elsewhere, with other coordinates of gravity. -/
def mounted (c : Conf) (fw : ℕ → ℤ) (w : ℕ → ℝ) (fg : ℕ → ℤ) (g : ℕ → ℝ) : Conf := { c with fw2l := fw, w2l := w, fg := fg, g := g }

/-- The same variables. -/
def State.mounted {c : Conf} (s : State c) (fw : ℕ → ℤ) (w : ℕ → ℝ) (fg : ℕ → ℤ) (g : ℕ → ℝ) : State (mounted c fw w fg g) :=
  ⟨s.q, s.dq, s.ddq, s.d3q, s.dqr, s.ddqr, s.w, s.x, s.dx, s.ddx⟩

end Thunder.Spec
