import Verif.Spec.Config

/-!
# Which configuration files make the constructor leave a vector

Stated on the tree.  A file is read in a fixed order; the first entry that cannot be read ends the reading, so that a wrong size after it does
no harm.
-/

namespace Thunder.Spec

/-- A tree as a parser delivers it: no undefined node inside. -/
inductive Parsed : Yaml → Prop
  | null : Parsed .null
  | scalar (s : Scalar) : Parsed (.scalar s)
  | seq {l : List Yaml} : (∀ z ∈ l, Parsed z) → Parsed (.seq l)
  | map {l : List (Option String × Yaml)} : (∀ e ∈ l, Parsed e.2) → Parsed (.map l)

/-- Nothing is stored under `k`, and asking for it is not an error. -/
def Missing (y : Yaml) (k : String) : Prop := NoChild y k ∨ y = .null ∨ ∃ l, y = .seq l

/-- The entry `k` of `y`, with the default `d`. -/
def OptEntry {α : Type} (f : Yaml → Option α) (d : α) (y : Yaml) (k : String) (a : α) : Prop := (Missing y k ∧ a = d) ∨ Entry f y k a

/-- The first part of a file: number and types of the joints, orders. -/
structure Heading where
  m : ℤ
  types : List String
  dl : ℤ
  elastic : Bool
  k : ℤ
  d : ℤ
  dm : ℤ

/-- The first part of the file `y` can be read, with contents `h`. -/
structure HeadingOf (y : Yaml) (h : Heading) : Prop where
  joints : Entry Yaml.asI y "num_joints" h.m
  types : Entry (Yaml.asVec Yaml.asS) y "type_joints" h.types
  dl : OptEntry Yaml.asI 0 y "Dl_order" h.dl
  elastic : OptEntry Yaml.asB false y "ELASTIC_MODEL" h.elastic
  rigid : h.elastic = false → h.k = 0 ∧ h.d = 0 ∧ h.dm = 0
  orders : h.elastic = true → ∃ z, Child y "elastic" z ∧ Entry Yaml.asI z "K_order" h.k ∧ Entry Yaml.asI z "D_order" h.d ∧
    Entry Yaml.asI z "Dm_order" h.dm

/-- Number of joints with a series elastic actuator among the first `m`. -/
def Heading.ne (h : Heading) : ℕ := (h.types.take h.m.toNat).countP fun t => t == "R_SEA" || t == "P_SEA"

/-- The table, the gravity and the two offsets of the file `y` can be read; `g`, `off` are the vectors of which three components are used. -/
structure VectorsOf (y : Yaml) (g : List Num) (off : List (List Num)) : Prop where
  table : ∃ z dh, Child y "kinematics" z ∧ Entry (Yaml.asVec Yaml.asD) z "DH" dh
  gravity : (Missing y "gravity" ∧ g = [some 0, some 0, some 0]) ∨ ∃ z, Child y "gravity" z ∧ Entry (Yaml.asVec Yaml.asD) z "value" g
  offsets : ∃ zb ze b₁ b₂ e₁ e₂, off = [b₁, b₂, e₁, e₂] ∧ Child y "Base_to_L0" zb ∧ Entry (Yaml.asVec Yaml.asD) zb "tr" b₁ ∧
    Entry (Yaml.asVec Yaml.asD) zb "ypr" b₂ ∧ Child y "Ln_to_EE" ze ∧ Entry (Yaml.asVec Yaml.asD) ze "tr" e₁ ∧ Entry (Yaml.asVec Yaml.asD) ze "ypr" e₂

/-- A loop over the section `k` of `y` visits the entries `l`; a section that is not a map has none. -/
def Visits (y : Yaml) (k : String) (l : List (Option String × Yaml)) : Prop :=
  Child y k (.map l) ∨ (l = [] ∧ (Missing y k ∨ ∃ z, Child y k z ∧ (z = .null ∨ (∃ s, z = .scalar s) ∨ z = .seq [])))

/-- The flags of a link are `xs`; `w` zeros when they are not given. -/
def LinkFlags (sec : String) (w : ℕ) (nd : Yaml) (xs : List ℤ) : Prop :=
  ∃ z, Child nd sec z ∧ OptEntry (Yaml.asVec Yaml.asI) (List.replicate w 0) z "symb" xs

/-- The flags of all links can be read and lie, `w` per link, inside a vector for `m` links. -/
def FlagsInside (sec : String) (w m : ℕ) (l : List (Option String × Yaml)) : Prop :=
  ∀ i e, l[i]? = some e → ∃ xs, LinkFlags sec w e.2 xs ∧ i * w + xs.length ≤ w * m

/-- The flags of some link end outside of that vector, and those of the links before it can be read and lie inside. -/
def FlagsOutside (sec : String) (w m : ℕ) (l : List (Option String × Yaml)) : Prop :=
  ∃ l₁ e l₂ xs, l = l₁ ++ e :: l₂ ∧ FlagsInside sec w m l₁ ∧ LinkFlags sec w e.2 xs ∧ w * m < l₁.length * w + xs.length

/-- The flags of an elastic joint can be read. -/
def JointFlags (nd : Yaml) : Prop :=
  (∀ k ∈ ["K_symb", "D_symb", "Dm_symb"], ∃ xs, OptEntry (Yaml.asVec Yaml.asI) [] nd k xs) ∧ ∃ z, OptEntry Yaml.asI 0 nd "Mm_symb" z

/-- The flags of the elastic joints can be read; negative orders are refused. -/
def ElasticFlags (y : Yaml) (h : Heading) : Prop :=
  h.elastic = true → 0 < h.ne → ∃ z l, Child y "elastic" z ∧ Visits z "joints" l ∧
    (l ≠ [] → 0 ≤ h.k ∧ 0 ≤ h.d ∧ 0 ≤ h.dm) ∧ ∀ i < h.ne, ∀ e, l[i]? = some e → JointFlags e.2

/-- The flags of the kinematic parameters can be read. -/
def KinematicFlags (y : Yaml) : Prop :=
  ∀ k ∈ ["kinematics", "Base_to_L0", "Ln_to_EE", "gravity"], ∀ z, Child y k z → ∃ xs, OptEntry (Yaml.asVec Yaml.asI) [] z "symb" xs

/-- The constructor leaves a vector, or uses the number of joints before it has one: the file does not give the number of joints; or there are
fewer types than joints; or the flags of a link lie outside their vector; or an offset or the gravity has fewer than three components.  In each
case the part of the file before can be read. -/
def BadConfig (y : Yaml) : Prop :=
  (¬ ∃ m, Entry Yaml.asI y "num_joints" m) ∨
  ∃ h, HeadingOf y h ∧ 0 ≤ h.m ∧ (h.types.length < h.m ∨
    ∃ g off l, h.m ≤ h.types.length ∧ VectorsOf y g off ∧ Visits y "dynamics" l ∧ (FlagsOutside "inertial" 10 h.m.toNat l ∨
      (FlagsInside "inertial" 10 h.m.toNat l ∧ ((0 < h.dl ∧ FlagsOutside "friction" h.dl.toNat h.m.toNat l) ∨
        ((0 < h.dl → FlagsInside "friction" h.dl.toNat h.m.toNat l) ∧ ElasticFlags y h ∧ KinematicFlags y ∧ h.m = h.types.length ∧
          ∃ v ∈ g :: off, v.length < 3)))))

end Thunder.Spec
