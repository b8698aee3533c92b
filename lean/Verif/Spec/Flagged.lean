import Verif.Spec.System

/-!
# The same mechanism with other parameters marked as symbolic
-/

namespace Thunder.Spec

open Robot

noncomputable section

/-- The file `c` with the parameters marked as symbolic that are symbolic in `d`. -/
def remarked (c d : Conf) : Conf :=
  { c with
    fdh := d.fdh, fw2l := d.fw2l, fee := d.fee, fg := d.fg, fdyn := d.fdyn, fdl := d.fdl, fK := d.fK, fD := d.fD, fDm := d.fDm, fMm := d.fMm }

/-- The same values of the variables. -/
def State.remarked {c : Conf} (s : State c) (d : Conf) : State (remarked c d) :=
  ⟨s.q, s.dq, s.ddq, s.d3q, s.dqr, s.ddqr, s.w, s.x, s.dx, s.ddx⟩

/-- The cosine and the sine used for each angle are the same with the marks of `c` and of `d`. -/
structure SameAngles [Fl] (c d : Conf) : Prop where
  alpha : ∀ i < c.n, angleOf (d.fdh (4 * i + 1)) (c.dh (4 * i + 1)) = angleOf (c.fdh (4 * i + 1)) (c.dh (4 * i + 1))
  theta : ∀ i < c.n, kindOf c i = .prismatic → angleOf (d.fdh (4 * i + 3)) (c.dh (4 * i + 3)) = angleOf (c.fdh (4 * i + 3)) (c.dh (4 * i + 3))
  w2l : ∀ i, 3 ≤ i → i < 6 → angleOf (d.fw2l i) (c.w2l i) = angleOf (c.fw2l i) (c.w2l i)
  ee : ∀ i, 3 ≤ i → i < 6 → angleOf (d.fee i) (c.ee i) = angleOf (c.fee i) (c.ee i)

end

end Thunder.Spec
