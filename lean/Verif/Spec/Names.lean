import Mathlib.Data.List.Infix

/-!
# Names of robots and functions
-/

namespace Thunder.Spec

/-- A name that can be given to a robot: letters, digits and single underscores, beginning with a letter and not ending with an underscore. -/
structure RobotName (s : String) : Prop where
  first : ∃ x l, s.toList = x :: l ∧ x.isAlpha = true
  chars : ∀ x ∈ s.toList, x.isAlphanum = true ∨ x = '_'
  single : ¬ ['_', '_'] <:+: s.toList
  last : s.toList.getLast? ≠ some '_'

/-- A name that can be given to a function: as above, but it may begin with a digit. -/
structure FunName (f : String) : Prop where
  chars : ∀ x ∈ f.toList, x.isAlphanum = true ∨ x = '_'
  single : ¬ ['_', '_'] <:+: f.toList
  first : f.toList.head? ≠ some '_'
  last : f.toList.getLast? ≠ some '_'
  ne : f.toList ≠ []

end Thunder.Spec
