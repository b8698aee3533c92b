import Verif.Model.Yaml
import Mathlib.Data.List.Basic

/-!
# Contents of configuration files

What a YAML tree says about links and elastic joints, stated on the tree itself.
-/

namespace Thunder.Spec

/-- The first entry of the map `y` with key `k` is `z`. -/
def Child (y : Yaml) (k : String) (z : Yaml) : Prop :=
  ∃ l₁ l₂, y = .map (l₁ ++ (some k, z) :: l₂) ∧ ∀ e ∈ l₁, e.1 ≠ some k

/-- `y` is a map without the key `k`. -/
def NoChild (y : Yaml) (k : String) : Prop := ∃ l, y = .map l ∧ ∀ e ∈ l, e.1 ≠ some k

/-- The entry `k` of `y` is the number `x`. -/
def Number (y : Yaml) (k : String) (x : Num) : Prop := ∃ z, Child y k z ∧ z.asD = some x

/-- The entry `k` of `y` is a list of at least `m` numbers, of which the first `m` are `f 0 … f (m-1)`. -/
def Numbers (y : Yaml) (k : String) (m : ℕ) (f : ℕ → Num) : Prop :=
  ∃ z xs, Child y k z ∧ z.asVec Yaml.asD = some xs ∧ m ≤ xs.length ∧ ∀ j < m, xs[j]? = some (f j)

/-- The ten inertial entries, with the given prefix for the centre of mass. -/
def Inertial (y : Yaml) (com : String) (p : ℕ → Num) : Prop :=
  Number y "mass" (p 0) ∧ Number y (com ++ "x") (p 1) ∧ Number y (com ++ "y") (p 2) ∧ Number y (com ++ "z") (p 3) ∧
  Number y "Ixx" (p 4) ∧ Number y "Ixy" (p 5) ∧ Number y "Ixz" (p 6) ∧ Number y "Iyy" (p 7) ∧ Number y "Iyz" (p 8) ∧ Number y "Izz" (p 9)

/-- A link of the section `dynamics`: inertial entries and link friction (zero when the section `friction` is missing). -/
def LinkEntry (nd : Yaml) (p : ℕ → Num) (ord : ℕ) (dl : ℕ → Num) : Prop :=
  (∃ z, Child nd "inertial" z ∧ Inertial z "CoM_" p) ∧
  ((NoChild nd "friction" ∧ ∀ j < ord, dl j = some 0) ∨ ∃ z, Child nd "friction" z ∧ Numbers z "Dl" ord dl)

/-- The section `dynamics` describes at least `n` links, of which the first `n` have the given values; further links are maps. -/
def DynamicsSection (y : Yaml) (n : ℕ) (P : ℕ → ℕ → Num) (ord : ℕ) (DL : ℕ → ℕ → Num) : Prop :=
  ∃ l, Child y "dynamics" (.map l) ∧ n ≤ l.length ∧ (∀ i < n, ∃ key nd, l[i]? = some (some key, nd) ∧ LinkEntry nd (P i) ord (DL i)) ∧
    ∀ e ∈ l, ∃ m, e.2 = .map m

/-- A link of the section `inertial` read by `load_par_REG`: inertial entries in regressor form, link friction in the same node. -/
def RegEntry (nd : Yaml) (p : ℕ → Num) (ord : ℕ) (dl : ℕ → Num) : Prop :=
  Inertial nd "m_CoM_" p ∧ ((NoChild nd "Dl" ∧ ∀ j < ord, dl j = some 0) ∨ Numbers nd "Dl" ord dl)

/-- The section `inertial` describes at least `n` links, of which the first `n` have the given values. -/
def InertialSection (y : Yaml) (n : ℕ) (P : ℕ → ℕ → Num) (ord : ℕ) (DL : ℕ → ℕ → Num) : Prop :=
  ∃ l, Child y "inertial" (.map l) ∧ n ≤ l.length ∧ ∀ i < n, ∃ key nd, l[i]? = some (some key, nd) ∧ RegEntry nd (P i) ord (DL i)

/-- An elastic joint: stiffness, coupling and motor friction (each only when its order is positive), motor inertia. -/
def JointEntry (nd : Yaml) (kO : ℕ) (K : ℕ → Num) (dO : ℕ) (D : ℕ → Num) (dmO : ℕ) (Dm : ℕ → Num) (Mm : Num) : Prop :=
  (0 < kO → Numbers nd "K" kO K) ∧ (0 < dO → Numbers nd "D" dO D) ∧ (0 < dmO → Numbers nd "Dm" dmO Dm) ∧ Number nd "Mm" Mm

/-- The section `elastic` describes at least `n` joints, of which the first `n` have the given values. -/
def ElasticJoints (y : Yaml) (n kO : ℕ) (K : ℕ → ℕ → Num) (dO : ℕ) (D : ℕ → ℕ → Num) (dmO : ℕ) (Dm : ℕ → ℕ → Num) (Mm : ℕ → Num) : Prop :=
  ∃ el l, Child y "elastic" el ∧ Child el "joints" (.map l) ∧ n ≤ l.length ∧
    ∀ i < n, ∃ key nd, l[i]? = some (some key, nd) ∧ JointEntry nd kO (K i) dO (D i) dmO (Dm i) (Mm i)

/-- A parameter vector made of rows of length `m`. -/
def Rows (v : List Num) (n m : ℕ) (f : ℕ → ℕ → Num) : Prop := v.length = m * n ∧ ∀ i < n, ∀ j < m, v[m * i + j]? = some (f i j)

end Thunder.Spec
