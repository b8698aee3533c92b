import Verif.Spec.System

/-!
# Robots whose first links are the same
-/

namespace Thunder.Spec

/-- The first `k` links of the two files are the same, as are the placements of the base. -/
structure SharesLinks (c c' : Conf) (k : ℕ) : Prop where
  le : k ≤ c.n
  le' : k ≤ c'.n
  types : ∀ i < k, c'.types.getD i "" = c.types.getD i ""
  dh : ∀ i < 4 * k, c'.dh i = c.dh i
  fdh : ∀ i < 4 * k, c'.fdh i = c.fdh i
  w2l : ∀ i < 6, c'.w2l i = c.w2l i
  fw2l : ∀ i, 3 ≤ i → i < 6 → c'.fw2l i = c.fw2l i

end Thunder.Spec
