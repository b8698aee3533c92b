import Verif.Spec.Wrapper

/-!
# How long the kinematic members are after `load_conf`

The four members `par_DHtable`, `par_gravity`, `par_base_L0` and `par_Ln2EE` are compacted to the entries marked symbolic.  Everything below is about the
file alone: which section belongs to a member, what has to be readable in it, which sections come before it.
-/

namespace Thunder.Spec

open Thunder.Wrap

/-- The member a vector of flags belongs to. -/
def flagged : SField → Field
  | .DH => .DH | .G => .G | .W2L => .W2L | .EE => .EE

/-- The section of a configuration file. -/
def sectionName : SField → String
  | .DH => "kinematics" | .W2L => "Base_to_L0" | .EE => "Ln_to_EE" | .G => "gravity"

/-- The vectors of numbers in it. -/
def sectionKeys : SField → List String
  | .DH => ["DH"] | .W2L => ["tr", "ypr"] | .EE => ["tr", "ypr"] | .G => ["value"]

/-- A vector of numbers can be read under a key. -/
def HasVec (nd : Yaml) (key : String) : Prop := ∃ v, (nd.getM key).bind (Yaml.asVec Yaml.asD) = some v

/-- The flags a section gives: its entry `symb`, or if it has none the flags used so far. -/
def FlagsOf (nd : Yaml) (old fl : List ℤ) : Prop :=
  ∃ sy, nd.getM "symb" = some sy ∧ (sy.isDef = true → sy.asVec Yaml.asI = some fl) ∧ (sy.isDef = false → fl = old)

/-- A section from which everything can be read. -/
def Whole (f : SField) (nd : Yaml) : Prop := (∀ key ∈ sectionKeys f, HasVec nd key) ∧ ∃ fl, FlagsOf nd [] fl

/-- The file has the section. -/
def Has (y : Yaml) (f : SField) (nd : Yaml) : Prop := y.getM (sectionName f) = some nd ∧ nd.isDef = true

/-- The section is absent or everything can be read from it. -/
def Passes (y : Yaml) (f : SField) : Prop := ∃ nd, y.getM (sectionName f) = some nd ∧ (nd.isDef = true → Whole f nd)

/-- Ten values of a link and its friction can be read. -/
def LinkPasses (e : Option String × Yaml) : Prop :=
  e.1 ≠ none ∧
  (∃ i, e.2.getC "inertial" = some i ∧
    ∀ key ∈ ["mass", "CoM_x", "CoM_y", "CoM_z", "Ixx", "Ixy", "Ixz", "Iyy", "Iyz", "Izz"], ∃ x, (i.getM key).bind Yaml.asD = some x) ∧
  ∃ fr, e.2.getC "friction" = some fr ∧ (fr.isDef = true → ∃ dl, (fr.getC "Dl").bind (Yaml.asVec Yaml.asD) = some dl)

/-- The same for the section `dynamics`: the entries of the links can be read. -/
def LinksPass (n : ℕ) (y : Yaml) : Prop :=
  ∃ nd, y.getM "dynamics" = some nd ∧ (nd.isDef = true → ∀ e ∈ nd.items.take n, LinkPasses e)

/-- The file can be read up to the section. -/
def Reached (n : ℕ) (y : Yaml) : SField → Prop
  | .DH => True
  | .W2L => Passes y .DH
  | .EE => Passes y .DH ∧ Passes y .W2L
  | .G => Passes y .DH ∧ Passes y .W2L ∧ Passes y .EE ∧ LinksPass n y

/-- The number of values read from a section. -/
def Values (f : SField) (nd : Yaml) (k : ℕ) : Prop :=
  match f with
  | .DH => ∃ v, (nd.getM "DH").bind (Yaml.asVec Yaml.asD) = some v ∧ k = v.length
  | .W2L | .EE => k = 6
  | .G => k = 3

/-! ## Accesses outside a vector -/

/-- `for i < k: if (flags[off+i]) … v[i] …` looks behind the end of one of the two vectors. -/
def Beyond (v : List Num) (fl : List ℤ) (off k : ℕ) : Prop := ∃ i < k, fl.length ≤ off + i ∨ fl.getD (off + i) 0 ≠ 0 ∧ v.length ≤ i

/-- Reading a section with these flags makes an access outside a vector. -/
def Overruns (n : ℕ) (f : SField) (nd : Yaml) (fl : List ℤ) : Prop :=
  match f with
  | .DH => ∃ v, (nd.getM "DH").bind (Yaml.asVec Yaml.asD) = some v ∧ (fl.length < v.length ∨ 4 * n < reads (fl.take v.length))
  | .W2L | .EE => ∃ a b, (nd.getM "tr").bind (Yaml.asVec Yaml.asD) = some a ∧ (nd.getM "ypr").bind (Yaml.asVec Yaml.asD) = some b ∧
      (Beyond a fl 0 3 ∨ Beyond b fl 3 3)
  | .G => ∃ v, (nd.getM "value").bind (Yaml.asVec Yaml.asD) = some v ∧ Beyond v fl 0 3

/-- A vector of numbers under a key of a list entry is too short. -/
def Short (nd : Yaml) (key : String) (ord : ℕ) : Prop := ∃ v, (nd.getC key).bind (Yaml.asVec Yaml.asD) = some v ∧ v.length < ord

/-- … can be read (nothing is read when the order is zero). -/
def CanRead (nd : Yaml) (key : String) (ord : ℕ) : Prop := ord = 0 ∨ ∃ v, (nd.getC key).bind (Yaml.asVec Yaml.asD) = some v

/-- The friction of a link has too few coefficients. -/
def LinkShort (ord : ℕ) (e : Option String × Yaml) : Prop :=
  LinkPasses e ∧ ∃ fr, e.2.getC "friction" = some fr ∧ fr.isDef = true ∧ Short fr "Dl" ord

/-- A motor can be read. -/
def JointPasses (c : Cfg) (e : Option String × Yaml) : Prop :=
  e.1 ≠ none ∧ CanRead e.2 "K" c.kOrd ∧ CanRead e.2 "D" c.dOrd ∧ CanRead e.2 "Dm" c.dmOrd ∧ ∃ x, (e.2.getC "Mm").bind Yaml.asD = some x

/-- A motor has too few coefficients. -/
def JointShort (c : Cfg) (e : Option String × Yaml) : Prop :=
  e.1 ≠ none ∧ (Short e.2 "K" c.kOrd ∨ CanRead e.2 "K" c.kOrd ∧ (Short e.2 "D" c.dOrd ∨ CanRead e.2 "D" c.dOrd ∧ Short e.2 "Dm" c.dmOrd))

/-- An entry of a list has property `B` and all entries before it have property `A`. -/
def FirstOf {α : Type} (A B : α → Prop) (l : List α) : Prop := ∃ pre e post, l = pre ++ e :: post ∧ (∀ x ∈ pre, A x) ∧ B e

/-- `load_conf` makes an access outside a vector. -/
def LoadOverruns (c : Cfg) (symb : SField → List ℤ) (y : Yaml) : Prop :=
  (∃ f nd fl, Reached c.n y f ∧ Has y f nd ∧ Whole f nd ∧ FlagsOf nd (symb f) fl ∧ Overruns c.n f nd fl) ∨
  (Passes y .DH ∧ Passes y .W2L ∧ Passes y .EE ∧ ∃ nd, y.getM "dynamics" = some nd ∧ nd.isDef = true ∧
    FirstOf LinkPasses (LinkShort c.dlOrd) (nd.items.take c.n)) ∨
  (Reached c.n y .G ∧ Passes y .G ∧ ∃ nd js, y.getM "elastic" = some nd ∧ nd.isDef = true ∧ nd.getM "joints" = some js ∧
    FirstOf (JointPasses c) (JointShort c) (js.items.take c.ne))

end Thunder.Spec
