import Verif.Spec.System

/-!
# Specification: the angles of a file
-/

namespace Thunder.Spec

/-- `a` is an angle of the file that enters a transformation, symbolic or not: the twist `α` of a joint, the angle `θ` of a prismatic joint, or a yaw,
pitch or roll angle of one of the two frames. -/
def FileAngle (c : Conf) (a : ℝ) : Prop :=
  (∃ i < c.n, a = c.dh (4 * i + 1)) ∨ (∃ i < c.n, kindOf c i = .prismatic ∧ a = c.dh (4 * i + 3)) ∨ ∃ i, 3 ≤ i ∧ i < 6 ∧ (a = c.w2l i ∨ a = c.ee i)

end Thunder.Spec
