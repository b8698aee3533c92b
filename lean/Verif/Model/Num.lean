import Mathlib.Data.Real.Basic
import Mathlib.Data.Option.NAry

/-!
# Numbers held in C++ `double` variables

`some x` is the real number `x` (rounding is not modelled).  `none` stands for a value the model does not determine: NaN, an
infinity, or uninitialised memory.  Every operation on `none` is `none`; a division by zero is `none`.
-/

namespace Thunder

/-- A double: a real number, or no known value. -/
abbrev Num := Option ℝ

namespace Num

noncomputable section

/-- Sum. -/
def add (a b : Num) : Num := Option.map₂ (· + ·) a b
/-- Difference. -/
def sub (a b : Num) : Num := Option.map₂ (· - ·) a b
/-- Product. -/
def mul (a b : Num) : Num := Option.map₂ (· * ·) a b
/-- Opposite. -/
def neg (a : Num) : Num := Option.map (fun x => -x) a
open scoped Classical in
/-- Quotient; a division by zero gives no number. -/
def div (a b : Num) : Num := a.bind fun x => b.bind fun y => if y = 0 then none else some (x / y)

@[simp] theorem add_some (a b : ℝ) : add (some a) (some b) = some (a + b) := rfl
@[simp] theorem sub_some (a b : ℝ) : sub (some a) (some b) = some (a - b) := rfl
@[simp] theorem mul_some (a b : ℝ) : mul (some a) (some b) = some (a * b) := rfl
@[simp] theorem neg_some (a : ℝ) : neg (some a) = some (-a) := rfl
@[simp] theorem add_none_left (a : Num) : add none a = none := rfl
@[simp] theorem add_none_right (a : Num) : add a none = none := by cases a <;> rfl
@[simp] theorem sub_none_left (a : Num) : sub none a = none := rfl
@[simp] theorem sub_none_right (a : Num) : sub a none = none := by cases a <;> rfl
@[simp] theorem mul_none_left (a : Num) : mul none a = none := rfl
@[simp] theorem mul_none_right (a : Num) : mul a none = none := by cases a <;> rfl
@[simp] theorem neg_none : neg none = none := rfl
@[simp] theorem div_none_left (a : Num) : div none a = none := rfl
@[simp] theorem div_none_right (a : Num) : div a none = none := by cases a <;> rfl
theorem div_some {a b : ℝ} (h : b ≠ 0) : div (some a) (some b) = some (a / b) := by simp [div, h]
@[simp] theorem div_zero (a : Num) : div a (some 0) = none := by cases a <;> simp [div]

end

end Num

end Thunder
