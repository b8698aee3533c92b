import Mathlib.Data.List.Basic
import Mathlib.Data.List.Infix

/-!
# Specification: replacing the leftmost non-overlapping occurrences of a pattern
-/

namespace Thunder.Spec

/-- `r` is `s` with every leftmost non-overlapping occurrence of `pat` replaced by `rep`, scanning from the left. -/
inductive Replaced (pat rep : List Char) : List Char → List Char → Prop
  | none {s : List Char} : ¬ pat <:+: s → Replaced pat rep s s
  | occ {pre post r : List Char} : (∀ pre' post', pre ++ pat ++ post = pre' ++ pat ++ post' → pre.length ≤ pre'.length) →
      Replaced pat rep post r → Replaced pat rep (pre ++ pat ++ post) (pre ++ rep ++ r)

end Thunder.Spec
