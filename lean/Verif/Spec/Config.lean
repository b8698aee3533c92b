import Verif.Spec.File
import Mathlib.Data.List.Count

/-!
# Configuration files

Which trees a `Robot` can be built from, stated on the tree.
-/

namespace Thunder.Spec

/-- The entry `k` of `y`, converted by `f`, is `a`. -/
def Entry {α : Type} (f : Yaml → Option α) (y : Yaml) (k : String) (a : α) : Prop := ∃ z, Child y k z ∧ f z = some a

/-- Every link of `l` that has a list of flags in its section `sec` has at most `w` of them. -/
def FlagsFit (l : List (Option String × Yaml)) (sec : String) (w : ℕ) : Prop :=
  ∀ e ∈ l, ∀ s xs, Child e.2 sec s → Entry (Yaml.asVec Yaml.asI) s "symb" xs → xs.length ≤ w

/-- Conditions on the sizes in a configuration: `num_joints` is given and is at most the number of joint types; offsets and gravity have at least
three components; there are at most `num_joints` links, and their flag lists are not too long. -/
structure SafeConfig (y : Yaml) (m : ℤ) : Prop where
  joints : Entry Yaml.asI y "num_joints" m
  types : ∀ ts, Entry (Yaml.asVec Yaml.asS) y "type_joints" ts → m ≤ ts.length
  offsets : ∀ s ∈ ["Base_to_L0", "Ln_to_EE"], ∀ k ∈ ["tr", "ypr"], ∀ z xs, Child y s z → Entry (Yaml.asVec Yaml.asD) z k xs → 3 ≤ xs.length
  gravity : ∀ z xs, Child y "gravity" z → Entry (Yaml.asVec Yaml.asD) z "value" xs → 3 ≤ xs.length
  links : ∀ l, Child y "dynamics" (.map l) → (l.length : ℤ) ≤ m
  inertial : ∀ l, Child y "dynamics" (.map l) → FlagsFit l "inertial" 10
  friction : ∀ l ord, Child y "dynamics" (.map l) → Entry Yaml.asI y "Dl_order" ord → 0 < ord → FlagsFit l "friction" ord.toNat

/-! ## What a well-formed file says -/

/-- A list of `k` numbers. -/
noncomputable def nums (k : ℕ) (f : ℕ → ℝ) : List Num := (List.range k).map fun i => some (f i)
/-- A list of `k` flags. -/
def flagsL (k : ℕ) (f : ℕ → ℤ) : List ℤ := (List.range k).map f

/-- The flags stored under `key` are `f`; all zero when the key is missing. -/
def Flags (z : Yaml) (key : String) (k : ℕ) (f : ℕ → ℤ) : Prop :=
  (NoChild z key ∧ ∀ i < k, f i = 0) ∨ Entry (Yaml.asVec Yaml.asI) z key (flagsL k f)

/-- The contents of a configuration: joint types, orders, the values of the parameters and the flags saying which of them are symbolic.  The
parameters of all links (joints) are numbered consecutively. -/
structure Conf where
  types : List String
  elastic : Bool
  kO : ℕ
  dO : ℕ
  dmO : ℕ
  dlO : ℕ
  dh : ℕ → ℝ
  w2l : ℕ → ℝ
  ee : ℕ → ℝ
  g : ℕ → ℝ
  dyn : ℕ → ℝ
  dl : ℕ → ℝ
  K : ℕ → ℝ
  D : ℕ → ℝ
  Dm : ℕ → ℝ
  Mm : ℕ → ℝ
  fdh : ℕ → ℤ
  fw2l : ℕ → ℤ
  fee : ℕ → ℤ
  fg : ℕ → ℤ
  fdyn : ℕ → ℤ
  fdl : ℕ → ℤ
  fK : ℕ → ℤ
  fD : ℕ → ℤ
  fDm : ℕ → ℤ
  fMm : ℕ → ℤ

/-- Number of joints. -/
def Conf.n (c : Conf) : ℕ := c.types.length
/-- Number of joints with a series elastic actuator. -/
def Conf.ne (c : Conf) : ℕ := c.types.countP fun t => t == "R_SEA" || t == "P_SEA"

/-- A frame: translation, yaw-pitch-roll angles, flags. -/
def FrameEntry (y : Yaml) (sec : String) (v : ℕ → ℝ) (f : ℕ → ℤ) : Prop :=
  ∃ z, Child y sec z ∧ Entry (Yaml.asVec Yaml.asD) z "tr" (nums 3 v) ∧ Entry (Yaml.asVec Yaml.asD) z "ypr" (nums 3 fun i => v (3 + i)) ∧
    Flags z "symb" 6 f

/-- Link `i` of a configuration.  With order zero the coefficients of friction must be numbers but are not used, and the flags are not read. -/
def ConfLink (c : Conf) (i : ℕ) (nd : Yaml) : Prop :=
  (∃ z, Child nd "inertial" z ∧ Inertial z "CoM_" (fun j => some (c.dyn (10 * i + j))) ∧ Flags z "symb" 10 fun j => c.fdyn (10 * i + j)) ∧
  ((c.dlO = 0 ∧ NoChild nd "friction") ∨ ∃ z, Child nd "friction" z ∧ Numbers z "Dl" c.dlO (fun j => some (c.dl (c.dlO * i + j))) ∧
    (0 < c.dlO → Flags z "symb" c.dlO fun j => c.fdl (c.dlO * i + j)))

/-- Elastic joint `i` of a configuration. -/
def ConfJoint (c : Conf) (i : ℕ) (nd : Yaml) : Prop :=
  JointEntry nd c.kO (fun j => some (c.K (c.kO * i + j))) c.dO (fun j => some (c.D (c.dO * i + j))) c.dmO (fun j => some (c.Dm (c.dmO * i + j)))
    (some (c.Mm i)) ∧
  Flags nd "K_symb" c.kO (fun j => c.fK (c.kO * i + j)) ∧ Flags nd "D_symb" c.dO (fun j => c.fD (c.dO * i + j)) ∧
  Flags nd "Dm_symb" c.dmO (fun j => c.fDm (c.dmO * i + j)) ∧
  ((NoChild nd "Mm_symb" ∧ c.fMm i = 0) ∨ Entry Yaml.asI nd "Mm_symb" (c.fMm i))

/-- The tree `y` is a well-formed configuration file with contents `c`. -/
structure Describes (y : Yaml) (c : Conf) : Prop where
  joints : Entry Yaml.asI y "num_joints" c.n
  types : Entry (Yaml.asVec Yaml.asS) y "type_joints" c.types
  dlO : (NoChild y "Dl_order" ∧ c.dlO = 0) ∨ Entry Yaml.asI y "Dl_order" c.dlO
  kin : ∃ z, Child y "kinematics" z ∧ Entry (Yaml.asVec Yaml.asD) z "DH" (nums (4 * c.n) c.dh) ∧ Flags z "symb" (4 * c.n) c.fdh
  grav : (NoChild y "gravity" ∧ ∀ i < 3, c.g i = 0 ∧ c.fg i = 0) ∨
    ∃ z, Child y "gravity" z ∧ z.isDef = true ∧ Entry (Yaml.asVec Yaml.asD) z "value" (nums 3 c.g) ∧ Flags z "symb" 3 c.fg
  base : FrameEntry y "Base_to_L0" c.w2l c.fw2l
  tool : FrameEntry y "Ln_to_EE" c.ee c.fee
  links : ∃ l, Child y "dynamics" (.map l) ∧ l.length = c.n ∧ ∀ i < c.n, ∃ key nd, l[i]? = some (some key, nd) ∧ ConfLink c i nd
  ela : (c.elastic = false ∧ (NoChild y "ELASTIC_MODEL" ∨ Entry Yaml.asB y "ELASTIC_MODEL" false) ∧ c.kO = 0 ∧ c.dO = 0 ∧ c.dmO = 0) ∨
    (c.elastic = true ∧ Entry Yaml.asB y "ELASTIC_MODEL" true ∧ ∃ el l, Child y "elastic" el ∧ el.isDef = true ∧
      Entry Yaml.asI el "K_order" c.kO ∧ Entry Yaml.asI el "D_order" c.dO ∧ Entry Yaml.asI el "Dm_order" c.dmO ∧
      Child el "joints" (.map l) ∧ c.ne ≤ l.length ∧ ∀ i < c.ne, ∃ key nd, l[i]? = some (some key, nd) ∧ ConfJoint c i nd)

end Thunder.Spec
