import Verif.Model.Robot

/-!
# Construction of a `Robot` from a configuration (`src/thunder/src/robot.cpp`)

`load_config`, `parse_config`, `initVarsFuns` and the constructors, lines 17-354; the default values of the members are in
library/robot.h:41-75.

Simplifications: `int` arithmetic does not overflow; console messages and the return value of `load_config` (ignored by the constructors) are
omitted; memory is never exhausted.  In `symb[k] = node.as<…>()` the right-hand side is evaluated first (C++17).
-/

namespace Thunder

noncomputable section

namespace Robot

open Act

/-- The members written by `parse_config`.  `nj` is `numJoints`, which has no default value (`none`). -/
structure Part where
  nj : Option ℤ
  types : List String
  elastic : Bool
  isEla : List ℤ
  ne : ℕ
  kI : ℤ
  dI : ℤ
  dlI : ℤ
  dmI : ℤ
  args : SMap (List Num)
  model : SMap SX
  symb : SMap (List ℤ)

/-- A new object: default member values, library/robot.h:41-75. -/
def Part.new : Part := ⟨none, [], false, [], 0, 0, 0, 0, 0, [], [], []⟩

/-- `node["k1"].as<…>()`. -/
def at1 {α : Type} (f : Yaml → Option α) (y : Yaml) (k : String) : Act Part α := ofYaml ((y.getM k).bind f)

/-- `node ? node.as<…>() : d`. -/
def opt {α : Type} (f : Yaml → Option α) (d : α) (y : Yaml) : Act Part α := if y.isDef then ofYaml (f y) else pure d

/-- Lines 56-74. -/
def parseBasic (y : Yaml) : Act Part ℤ := do
  let nj ← at1 Yaml.asI y "num_joints"
  modify fun p => { p with nj := some nj }
  let types ← at1 (Yaml.asVec Yaml.asS) y "type_joints"
  modify fun p => { p with types := types }
  let dl ← ofYaml (y.getM "Dl_order")
  let dlI ← opt Yaml.asI 0 dl
  modify fun p => { p with dlI := dlI, elastic := false, kI := 0, dI := 0, dmI := 0 }
  let em ← ofYaml (y.getM "ELASTIC_MODEL")
  let on ← opt Yaml.asB false em
  if on then do
    modify fun p => { p with elastic := true }
    let el ← ofYaml (y.getM "elastic")
    let k ← at1 Yaml.asI el "K_order"
    modify fun p => { p with kI := k }
    let d ← at1 Yaml.asI el "D_order"
    modify fun p => { p with dI := d }
    let dm ← at1 Yaml.asI el "Dm_order"
    modify fun p => { p with dmI := dm }
    pure nj
  else pure nj

/-- The test of line 79. -/
def isSEA (t : String) : Bool := t == "R_SEA" || t == "P_SEA"

/-- Lines 76-85: `resize` of a vector to a negative size throws; `jointsType[i]` is not checked. -/
def classify (nj : ℤ) : Act Part Unit := do
  modify fun p => { p with ne := 0 }
  ofExc (if 0 ≤ nj then some () else none)
  let p ← read
  ofIdx (if nj.toNat ≤ p.types.length then some () else none)
  modify fun p => { p with isEla := (p.types.take nj.toNat).map fun t => if isSEA t then 1 else 0
                           ne := (p.types.take nj.toNat).countP isSEA }

/-- `std::copy(xs.begin(), xs.end(), acc.begin() + pos)`, unchecked. -/
def copyAt (acc : List ℤ) (pos : ℕ) (xs : List ℤ) : Option (List ℤ) :=
  if pos + xs.length ≤ acc.length then some (acc.take pos ++ xs ++ acc.drop (pos + xs.length)) else none

/-- The loops over the links, lines 119-130 (`sec` is "inertial", `w` is 10) and 136-147 ("friction", `Dl_order`).  The loop visits every
entry of the file. -/
def symbLinks (sec : String) (w : ℕ) : ℕ → List ℤ → List (Option String × Yaml) → Act Part (List ℤ)
  | _, acc, [] => pure acc
  | i, acc, (_, nd) :: rest => do
    let s ← ofYaml (nd.getC sec)
    let fl ← ofYaml (s.getM "symb")
    let xs ← opt (Yaml.asVec Yaml.asI) (List.replicate w 0) fl
    let acc' ← ofIdx (copyAt acc (i * w) xs)
    symbLinks sec w (i + 1) acc' rest

/-- `std::vector::resize`. -/
def resize (k : ℕ) (l : List ℤ) : List ℤ := l.take k ++ List.replicate (k - l.length) 0

/-- `parse_symb_vector`, lines 158-165; a negative size throws. -/
def symbVector (nd : Yaml) (key : String) (order : ℤ) : Act Part (List ℤ) := do
  let v ← ofYaml (nd.getC key)
  if v.isDef then do
    let xs ← ofYaml (v.asVec Yaml.asI)
    ofExc (if 0 ≤ order then some (resize order.toNat xs) else none)
  else ofExc (if 0 ≤ order then some (List.replicate order.toNat 0) else none)

/-- The vectors `par_K_symb`, `par_D_symb`, `par_Dm_symb`, `par_Mm_symb`. -/
structure Ela where
  k : List ℤ
  d : List ℤ
  dm : List ℤ
  mm : List ℤ

/-- Lines 154-180. -/
def symbJoints (ne : ℕ) (kI dI dmI : ℤ) : ℕ → Ela → List (Option String × Yaml) → Act Part Ela
  | _, acc, [] => pure acc
  | i, acc, (_, nd) :: rest =>
    if i = ne then pure acc
    else do
      let k ← symbVector nd "K_symb" kI
      let d ← symbVector nd "D_symb" dI
      let dm ← symbVector nd "Dm_symb" dmI
      let m ← ofYaml (nd.getC "Mm_symb")
      let mm ← opt Yaml.asI 0 m
      symbJoints ne kI dI dmI (i + 1)
        ⟨if 0 < kI then acc.k ++ k else acc.k, if 0 < dI then acc.d ++ d else acc.d, if 0 < dmI then acc.dm ++ dm else acc.dm, acc.mm ++ [mm]⟩
        rest

/-- `symb[k] = v`, lines 183-201. -/
def putSymb (k : String) (v : List ℤ) : Act Part Unit := modify fun p => { p with symb := p.symb.put k v }

/-- `if (node["symb"]) symb[par] = node["symb"].as<std::vector<int>>(); else symb[par].assign(size, 0);`, lines 191-201. -/
def symbOpt (nd : Yaml) (par : String) (size : ℕ) : Act Part Unit := do
  let s ← ofYaml (nd.getM "symb")
  if s.isDef then do
    let xs ← ofYaml (s.asVec Yaml.asI)
    putSymb par xs
  else putSymb par (List.replicate size 0)

/-- The numeric vectors read in lines 87-110. -/
structure Nums where
  dh : List Num
  g : List Num
  btr : List Num
  bypr : List Num
  etr : List Num
  eypr : List Num

/-- Lines 87-110. -/
def parseNums (y : Yaml) : Act Part Nums := do
  let kin ← ofYaml (y.getM "kinematics")
  let dh ← at1 (Yaml.asVec Yaml.asD) kin "DH"
  let gr ← ofYaml (y.getM "gravity")
  let g ← opt (fun gr => (gr.getM "value").bind (Yaml.asVec Yaml.asD)) [some 0, some 0, some 0] gr
  let fb ← ofYaml (y.getM "Base_to_L0")
  let btr ← at1 (Yaml.asVec Yaml.asD) fb "tr"
  let bypr ← at1 (Yaml.asVec Yaml.asD) fb "ypr"
  let fe ← ofYaml (y.getM "Ln_to_EE")
  let etr ← at1 (Yaml.asVec Yaml.asD) fe "tr"
  let eypr ← at1 (Yaml.asVec Yaml.asD) fe "ypr"
  pure ⟨dh, g, btr, bypr, etr, eypr⟩

/-- Lines 132-148. -/
def parseDlSymb (dyn : Yaml) (nj dlI : ℤ) : Act Part (List ℤ) :=
  if 0 < dlI then symbLinks "friction" dlI.toNat 0 (List.replicate (dlI * nj).toNat 0) dyn.items else pure []

/-- Lines 150-181. -/
def parseElaSymb (y : Yaml) (p : Part) : Act Part Ela :=
  if p.elastic then do
    let el ← ofYaml (y.getM "elastic")
    let js ← ofYaml (el.getM "joints")
    symbJoints p.ne p.kI p.dI p.dmI 0 ⟨[], [], [], []⟩ js.items
  else pure ⟨[], [], [], []⟩

/-- Lines 116-181: the flags of the dynamic parameters. -/
def parseDynSymb (y : Yaml) (nj : ℤ) : Act Part (List ℤ × List ℤ × Ela) := do
  let dyn ← ofYaml (y.getM "dynamics")
  let fDYN ← symbLinks "inertial" 10 0 (List.replicate (10 * nj.toNat) 0) dyn.items
  let p ← read
  let fDl ← parseDlSymb dyn nj p.dlI
  let ela ← parseElaSymb y p
  pure (fDYN, fDl, ela)

/-- Lines 191-201. -/
def parseKinSymb (y : Yaml) (dhSize : ℕ) : Act Part Unit := do
  let kin ← ofYaml (y.getM "kinematics")
  symbOpt kin "par_DHtable" dhSize
  let fb ← ofYaml (y.getM "Base_to_L0")
  symbOpt fb "par_world2L0" 6
  let fe ← ofYaml (y.getM "Ln_to_EE")
  symbOpt fe "par_Ln2EE" 6
  let gr ← ofYaml (y.getM "gravity")
  symbOpt gr "par_gravity" 3

/-- The first three elements, read with the unchecked `operator[]`, lines 221-227. -/
def first3 (l : List Num) : Option (List Num) := if 3 ≤ l.length then some (l.take 3) else none

/-- Insert a list of entries with `insert` (existing keys are kept). -/
def insAll {α : Type} (m : SMap α) (l : List (String × α)) : SMap α := l.foldl (fun m p => m.ins p.1 p.2) m

/-- The initial `model`, lines 210-215. -/
def kinModel (n : ℕ) : List (String × SX) :=
  [("par_DHtable", SX.sym "DHtable" (n * 4)), ("par_world2L0", SX.sym "world2L0" 6), ("par_Ln2EE", SX.sym "Ln2EE" 6),
    ("par_gravity", SX.sym "gravity" 3)]
/-- The initial `args`, lines 230-235. -/
def kinArgs (dh w2l ee g : List Num) : List (String × List Num) :=
  [("par_DHtable", dh), ("par_world2L0", w2l), ("par_Ln2EE", ee), ("par_gravity", g)]

/-- Lines 204-235. -/
def parseFinal (v : Nums) : Act Part Unit := do
  let p ← read
  ofExc (if p.nj = some (p.types.length : ℤ) then some () else none)
  modify fun p => { p with model := insAll [] (kinModel p.types.length) }
  let btr ← ofIdx (first3 v.btr)
  let bypr ← ofIdx (first3 v.bypr)
  let etr ← ofIdx (first3 v.etr)
  let eypr ← ofIdx (first3 v.eypr)
  let g ← ofIdx (first3 v.g)
  modify fun p => { p with args := insAll [] (kinArgs v.dh (btr ++ bypr) (etr ++ eypr) g) }

/-- The `try` block of `parse_config`, lines 52-236. -/
def parse (y : Yaml) : Act Part Unit := do
  let nj ← parseBasic y
  classify nj
  let v ← parseNums y
  let (fDYN, fDl, ela) ← parseDynSymb y nj
  putSymb "par_DYN" fDYN
  putSymb "par_Dl" fDl
  putSymb "par_K" ela.k
  putSymb "par_D" ela.d
  putSymb "par_Dm" ela.dm
  putSymb "par_Mm" ela.mm
  parseKinSymb y v.dh.length
  parseFinal v

/-- Result of a constructor. -/
inductive Made
  | ok (r : Robot)
  | exc
  | ub

/-- `par_K` … of `initVarsFuns`: the sizes given to `SX::sym`, lines 266-269; a negative one throws. -/
def Part.SizesOk (p : Part) : Prop :=
  0 ≤ p.types.length * p.dlI ∧ 0 ≤ p.ne * p.kI ∧ 0 ≤ p.ne * p.dI ∧ 0 ≤ p.ne * p.dmI

/-- The test is decidable. -/
instance (p : Part) : Decidable p.SizesOk := inferInstanceAs (Decidable (_ ∧ _ ∧ _ ∧ _))

/-- Entries of `model` added by `initVarsFuns`, lines 274-297. -/
def newModel (p : Part) (n : ℕ) : List (String × SX) :=
  [("q", SX.sym "q" n), ("dq", SX.sym "dq" n), ("ddq", SX.sym "ddq" n), ("d3q", SX.sym "d3q" n), ("d4q", SX.sym "d4q" n),
    ("dqr", SX.sym "dqr" n), ("ddqr", SX.sym "ddqr" n), ("w", SX.sym "w" 6), ("par_DYN", SX.sym "par_DYN" (10 * n)),
    ("par_REG", SX.sym "par_REG" (10 * n))]
  ++ (if 0 < p.dlI then [("par_Dl", SX.sym "par_Dl" (n * p.dlI.toNat))] else [])
  ++ (if p.elastic then
      [("x", SX.sym "x" p.ne), ("dx", SX.sym "dx" p.ne), ("ddx", SX.sym "ddx" p.ne), ("ddxr", SX.sym "ddxr" p.ne),
        ("par_K", SX.sym "par_K" (p.ne * p.kI.toNat)), ("par_D", SX.sym "par_D" (p.ne * p.dI.toNat)),
        ("par_Dm", SX.sym "par_Dm" (p.ne * p.dmI.toNat)), ("par_Mm", SX.sym "par_Mm" p.ne)]
    else [])

/-- Entries of `args` added by `initVarsFuns`, lines 299-322. -/
def newArgs (p : Part) (n : ℕ) : List (String × List Num) :=
  [("q", zeros n), ("dq", zeros n), ("ddq", zeros n), ("d3q", zeros n), ("d4q", zeros n), ("dqr", zeros n), ("ddqr", zeros n), ("w", zeros 6),
    ("par_DYN", zeros (10 * n)), ("par_REG", zeros (10 * n))]
  ++ (if 0 < p.dlI then [("par_Dl", zeros (p.dlI.toNat * n))] else [])
  ++ (if p.elastic then
      [("x", zeros p.ne), ("dx", zeros p.ne), ("ddx", zeros p.ne), ("ddxr", zeros p.ne), ("par_K", zeros (p.kI.toNat * p.ne)),
        ("par_D", zeros (p.dI.toNat * p.ne)), ("par_Dm", zeros (p.dmI.toNat * p.ne)), ("par_Mm", zeros p.ne)]
    else [])

/-- `std::vector<int> v(k, 1)`, lines 327-347. -/
def ones (k : ℕ) : List ℤ := List.replicate k 1

/-- Entries of `symb` added by `initVarsFuns`, lines 327-352. -/
def newSymb (p : Part) (n : ℕ) : List (String × List ℤ) :=
  [("q", ones n), ("dq", ones n), ("ddq", ones n), ("d3q", ones n), ("d4q", ones n), ("dqr", ones n), ("ddqr", ones n), ("w", ones 6)]
  ++ (if p.elastic then [("x", ones p.ne), ("dx", ones p.ne), ("ddx", ones p.ne), ("ddxr", ones p.ne)] else [])

/-- `initVarsFuns`, lines 244-354.  Reading the uninitialised `numJoints` is undefined behaviour. -/
def initVars (p : Part) : Made :=
  match p.nj with
  | none => .ub
  | some nj =>
    if (p.types.length : ℤ) ≠ nj then .exc
    else if ¬ p.SizesOk then .exc
    else .ok {
      name := "robot", n := p.types.length, ne := p.ne, elastic := p.elastic, types := p.types, isEla := p.isEla
      kI := p.kI, dI := p.dI, dlI := p.dlI, dmI := p.dmI
      args := insAll p.args (newArgs p p.types.length)
      model := insAll p.model (newModel p p.types.length)
      symb := insAll p.symb (newSymb p p.types.length)
      funs := [], funArgs := [], funDescr := [] }

/-- The constructor `Robot(YAML::Node)`, lines 22-25 and 38-42: a `YAML::Exception` in `parse_config` is caught there, and `initVarsFuns` runs on the
members written so far. -/
def construct (y : Yaml) : Made :=
  match parse y Part.new with
  | .ok _ p => initVars p
  | .yaml p => initVars p
  | .exc _ => .exc
  | .ub => .ub

/-- The constructor `Robot(std::string)`, lines 17-20 and 28-37: if the file cannot be loaded, the null node is parsed. -/
def constructFile (file : Option Yaml) : Made := construct (file.getD .null)

end Robot

end

end Thunder
