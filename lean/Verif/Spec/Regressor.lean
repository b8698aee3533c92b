import Verif.Sym.Env

/-!
# Vocabulary of the regressor properties
-/

namespace Thunder.Spec

/-- Positions `< k` marked symbolic (flag ≠ 0), in increasing order. -/
def symIdx (flags : List ℤ) (k : ℕ) : List ℕ := (List.range k).filter fun i => flags.getD i 0 ≠ 0

end Thunder.Spec
