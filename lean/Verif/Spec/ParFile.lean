import Verif.Spec.File
import Verif.Spec.Config

/-!
# Files of inertial parameters
-/

namespace Thunder.Spec

/-- The section `dynamics` consists of the links `name 0`, …, `name (n-1)`, in this order, with the given inertial entries. -/
def LinkList (y : Yaml) (n : ℕ) (name : ℕ → String) (com : String) (P : ℕ → ℕ → Num) : Prop :=
  ∃ l, Child y "dynamics" (.map l) ∧ l.length = n ∧
    ∀ i < n, ∃ nd z, l[i]? = some (some (name i), nd) ∧ Child nd "inertial" z ∧ Inertial z com (P i)

/-- No friction is declared at the top of the file. -/
def NoFriction (y : Yaml) : Prop := NoChild y "Dl_order" ∨ Entry Yaml.asI y "Dl_order" 0

end Thunder.Spec
