import Mathlib.Data.List.Basic
import Mathlib.Data.Nat.Find
import Mathlib.Data.Int.Basic

/-!
# Text processing

`std::string` values are lists of characters.  `none` as a result is an exception leaving the function.
-/

namespace Thunder.Text

/-- `s.find(pat, pos)`: the smallest position `≥ pos` at which `pat` occurs, `none` for `npos`. -/
def find (s pat : List Char) (pos : ℕ) : Option ℕ :=
  (List.range' pos (s.length + 1 - pos)).find? fun p => decide (pat <+: s.drop p)

/-- `s.substr(pos, n)`: throws `out_of_range` when `pos > s.size()`. -/
def substr (s : List Char) (pos n : ℕ) : Option (List Char) :=
  if pos ≤ s.length then some ((s.drop pos).take n) else none

/-- Variables of the loop in `replace_all`, src/utils.cpp:409-413. -/
structure RS where
  newString : List Char
  lastPos : ℕ

/-- One iteration of the `while` loop, src/utils.cpp:415-419; `none` when the loop ends. -/
def replStep (src pat rep : List Char) (s : RS) : Option RS :=
  match find src pat s.lastPos with
  | none => none
  | some f => some ⟨s.newString ++ (src.drop s.lastPos).take (f - s.lastPos) ++ rep, f + pat.length⟩

/-- The loop followed by the tail copy, src/utils.cpp:415-425, as a big-step relation: `ReplRun src pat rep s r` when the run from state `s`
terminates with `r` (`none`: exception). -/
inductive ReplRun (src pat rep : List Char) : RS → Option (List Char) → Prop
  | done {s : RS} : replStep src pat rep s = none →
      ReplRun src pat rep s ((substr src s.lastPos src.length).map (s.newString ++ ·))
  | step {s s' : RS} {r : Option (List Char)} : replStep src pat rep s = some s' → ReplRun src pat rep s' r → ReplRun src pat rep s r

/-- `replace_all(source, from_str, to_str)`, src/utils.cpp:408-427. -/
def ReplaceAll (src pat rep : List Char) (r : Option (List Char)) : Prop := ReplRun src pat rep ⟨[], 0⟩ r

/-- `s.find_last_of(set)`. -/
def findLastOf (s set : List Char) : Option ℕ :=
  (List.range s.length).reverse.find? fun p => decide (∃ c ∈ s[p]?, c ∈ set)

/-- Conversion of a `size_t` to `int` (two's complement; `npos` becomes −1). -/
def toInt : Option ℕ → ℤ
  | none => -1
  | some p => if (p : ℤ) % 4294967296 < 2147483648 then (p : ℤ) % 4294967296 else (p : ℤ) % 4294967296 - 4294967296

/-- Conversion of an `int` expression to the `size_t` count of `substr`. -/
def toSize (z : ℤ) : ℕ := (z % 18446744073709551616).toNat

/-- Outcome of the name parsing in `main`. -/
inductive NameRes
  | invalid
  | throws
  | ok (path name : List Char)

/-- `main`, thunder_main.cpp:97-113: `path_robot` and `robot_name` from the first argument. -/
def parseName (cfg : List Char) : NameRes :=
  let iy := toInt (findLastOf cfg ".yaml".toList)
  if iy > 0 then
    let ip := toInt (findLastOf cfg "/".toList)
    if ip = -1 then
      match substr cfg 0 (toSize (iy + 1 - 5)) with
      | none => .throws
      | some n => .ok "./".toList n
    else
      match substr cfg 0 (toSize (ip + 1)), substr cfg (toSize (ip + 1)) (toSize (iy - ip - 5)) with
      | some p, some n => .ok p n
      | _, _ => .throws
  else .invalid

end Thunder.Text
