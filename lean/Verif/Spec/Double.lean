import Mathlib.Data.Real.Basic

/-!
# Numbers of the type `double`
-/

namespace Thunder.Spec

/-- The finite numbers of the format binary64 of IEEE 754. -/
def IsDouble (y : ℝ) : Prop := ∃ m e : ℤ, |m| < 2 ^ 53 ∧ -1074 ≤ e ∧ e ≤ 971 ∧ y = m * (2 : ℝ) ^ e

end Thunder.Spec
