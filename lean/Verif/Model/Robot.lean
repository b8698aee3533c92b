import Verif.Sym.SX
import Verif.Model.Act
import Verif.Model.Yaml
import Verif.Model.Inertia

/-!
# The class `Robot` (`src/thunder/src/robot.cpp`)

State and member functions of `Robot`; line numbers refer to that file unless another one is named.  The constructor and `robot_from_file` are
in `Verif.Model.Config` and `Verif.Model.Pipeline`.

Simplifications: the entries of `args` are numeric columns, represented by the list of their values (a structural zero is the value 0);
messages on the console are omitted; `int` arithmetic does not overflow.
-/

open scoped Classical

namespace Thunder

noncomputable section

/-- A `casadi::Function` built from symbolic inputs: the symbols of every input and the (dense) output. -/
structure CFun where
  inputs : List (List Var)
  out : SX

/-- The data members of `Robot`, library/robot.h:41-75 and 102-135.  The orders are `int` members. -/
structure Robot where
  name : String
  n : ℕ
  ne : ℕ
  elastic : Bool
  types : List String
  isEla : List ℤ
  kI : ℤ
  dI : ℤ
  dlI : ℤ
  dmI : ℤ
  args : SMap (List Num)
  model : SMap SX
  symb : SMap (List ℤ)
  funs : SMap CFun
  funArgs : SMap (List String)
  funDescr : SMap String

namespace Robot

/-- Number of iterations of `for (j = 0; j < K_order; j++)`, and `K_order` itself wherever `K_order > 0`. -/
def kOrd (r : Robot) : ℕ := r.kI.toNat
/-- The same for `D_order`. -/
def dOrd (r : Robot) : ℕ := r.dI.toNat
/-- The same for `Dl_order`. -/
def dlOrd (r : Robot) : ℕ := r.dlI.toNat
/-- The same for `Dm_order`. -/
def dmOrd (r : Robot) : ℕ := r.dmI.toNat

/-- `args[k]`, as read. -/
def arg (r : Robot) (k : String) : List Num := r.args.get k []
/-- `model[k]`, as read (a missing entry is the empty matrix). -/
def mod (r : Robot) (k : String) : SX := r.model.get k (SX.zeros 0 0)
/-- `symb[k]`, as read. -/
def flags (r : Robot) (k : String) : List ℤ := r.symb.get k []

/-- `args[k] = v`. -/
def setArgs (r : Robot) (k : String) (v : List Num) : Robot := { r with args := r.args.put k v }
/-- `args[k]` used as a reference: a missing key is inserted with an empty value. -/
def touchArg (r : Robot) (k : String) : Robot := { r with args := r.args.ins k [] }

end Robot

/-! ## CasADi functions -/

/-- Values given to one input, after the size check of `casadi::Function::call` for a column argument: same size, empty argument (all zero),
scalar argument (repeated); otherwise an exception. -/
def fitInput (k : ℕ) (v : List Num) : Option (List Num) :=
  if v.length = k then some v
  else if v.length = 0 then some (List.replicate k (some 0))
  else if v.length = 1 then some (List.replicate k (v.getD 0 none))
  else none

/-- First value bound to a symbol. -/
def bound (l : List (Var × Num)) (v : Var) : Option Num := (l.find? fun p => p.1 == v).map Prod.snd

/-- `get_elements()`: entries column by column. -/
def SX.elements (A : SX) : List Expr := (List.range (A.rows * A.cols)).map fun k => A.e (k % A.rows) (k / A.rows)

/-- Evaluation of the output with the given bindings.  When one of the values is undetermined, so is the result. -/
def CFun.evalWith (f : CFun) (l : List (Var × Num)) : List Num :=
  if ∀ p ∈ l, p.2 ≠ none then
    f.out.elements.map fun e => some (Expr.eval (fun v => ((bound l v).join).getD 0) e)
  else f.out.elements.map fun _ => none

/-- `casadi_fun[name].call(inputs, result)`, line 376; the number of arguments must be the number of inputs. -/
def CFun.call (f : CFun) (vals : List (List Num)) : Option (List Num) :=
  if vals.length = f.inputs.length then
    ((List.zip f.inputs vals).mapM fun p => (fitInput p.1.length p.2).map fun v => List.zip p.1 v).map fun l => f.evalWith l.flatten
  else none

/-- The symbol of an expression that is a plain symbol. -/
def symOf : Expr → Option Var
  | .var v => some v
  | _ => none

/-- The characters of a name after the first one: letters, digits and underscores, no two underscores in a row. -/
def checkTail : List Char → Bool
  | [] => true
  | x :: l => (if x = '_' then decide (l.head? ≠ some '_') else x.isAlphanum) && checkTail l

/-- `casadi::Function::check_name` (CasADi), called by the constructor of line 1023: the first character is a letter, the rest as above, and the name
is not a keyword. -/
def checkName (s : String) : Bool :=
  match s.toList with
  | [] => false
  | x :: l => x.isAlpha && checkTail l && !(["null", "jac", "hess"].contains s)

/-- `casadi::Function fun(name, inputs, {densify(expr)})`, line 1023.  The constructor throws when the name is not accepted, when an input is not
purely symbolic, when a symbol occurs twice in the inputs, or when the expression has a free symbol that is not an input. -/
def mkFun (name : String) (inputs : List (List Expr)) (expr : SX) : Option CFun :=
  if checkName name then
    match inputs.mapM fun l => l.mapM symOf with
    | none => none
    | some vs => if vs.flatten.Nodup ∧ ∀ e ∈ expr.elements, Expr.fv e ⊆ {v | v ∈ vs.flatten} then some ⟨vs, expr⟩ else none
  else none

/-- The name of the C function of `f`, line 1023. -/
def cName (robot f : String) : String := robot ++ "_" ++ f ++ "_fun"

namespace Robot

open Act

/-! ## Arguments -/

/-- A numeric matrix returned to the caller, column by column. -/
structure Mat where
  rows : ℕ
  cols : ℕ
  data : List Num

/-- `std::transform(src.begin(), src.end(), dst.data(), …)` into a new Eigen object with `k` entries: entries that are not written are
undetermined, writing past the end is undefined behaviour. -/
def fill (k : ℕ) (src : List Num) : Option (List Num) :=
  if src.length ≤ k then some (src ++ List.replicate (k - src.length) none) else none

/-- `get`, lines 356-391. -/
def get (name : String) : Act Robot Mat := do
  let r ← read
  match r.funArgs.find name with
  | none => pure ⟨1, 1, [some 0]⟩
  | some fargs =>
    modify fun r => fargs.foldl touchArg { r with model := r.model.ins name (SX.zeros 0 0) }
    let f ← ofIdx (r.funs.find name)
    let res ← ofExc (f.call (fargs.map r.arg))
    let data ← ofIdx (fill ((r.mod name).rows * (r.mod name).cols) res)
    pure ⟨(r.mod name).rows, (r.mod name).cols, data⟩

/-- `set_arg`, lines 393-402. -/
def setArg (name : String) (v : List Num) : Act Robot ℤ := do
  modify fun r => r.setArgs name v
  pure 1

/-- `for (i < xs.size()) arg(i) = xs(i)` on a column `old`: an index outside the column throws (the earlier entries are already written). -/
def assign (name : String) (xs : List Num) : Act Robot Unit := do
  let r ← read
  let old := r.arg name
  if xs.length ≤ old.length then modify fun r => r.setArgs name (xs ++ old.drop xs.length)
  else do
    modify fun r => r.setArgs name (xs.take old.length)
    ofExc none

/-- The setters for variables, lines 404-506. -/
inductive VarName
  | q | dq | dqr | ddqr | x | dx | ddx | ddxr
  deriving DecidableEq

/-- The key of the argument that a setter changes, lines 404-513. -/
def VarName.key : VarName → String
  | .q => "q" | .dq => "dq" | .dqr => "dqr" | .ddqr => "ddqr" | .x => "x" | .dx => "dx" | .ddx => "ddx" | .ddxr => "ddxr"

/-- The size a setter compares with. -/
def VarName.size (r : Robot) : VarName → ℕ
  | .q | .dq | .dqr | .ddqr => r.n
  | .x | .dx | .ddx | .ddxr => r.ne

/-- Body shared by the setters: `args[key]` (inserted if missing), size check, element-wise copy. -/
def setSized (key : String) (size : ℕ) (v : List Num) : Act Robot ℤ := do
  modify fun r => r.touchArg key
  if v.length = size then do
    assign key v
    pure 1
  else pure 0

/-- `set_q` … `set_ddxr`, lines 404-506. -/
def setVar (f : VarName) (v : List Num) : Act Robot ℤ := do
  let r ← read
  setSized f.key (f.size r) v

/-- `set_par_DYN`, lines 508-522: both branches return before the call of `update_inertial_REG`. -/
def setParDYN (v : List Num) : Act Robot ℤ := do
  let r ← read
  setSized "par_DYN" (10 * r.n) v
/-- `set_par_REG`, lines 524-537. -/
def setParREG (v : List Num) : Act Robot ℤ := do
  let r ← read
  setSized "par_REG" (10 * r.n) v

/-- `get_arg`, lines 540-547. -/
def getArg (name : String) : Act Robot (List Num) := do
  modify fun r => r.touchArg name
  let r ← read
  pure (r.arg name)

/-- `get_par_DYN` and `get_par_REG`, lines 549-565. -/
def getPar10 (key : String) : Act Robot (List Num) := do
  modify fun r => r.touchArg key
  let r ← read
  ofIdx (fill (10 * r.n) (r.arg key))
/-- `get_par_DYN`, lines 549-556. -/
def getParDYN : Act Robot (List Num) := getPar10 "par_DYN"
/-- `get_par_REG`, lines 558-565. -/
def getParREG : Act Robot (List Num) := getPar10 "par_REG"

/-- `update_inertial_DYN`, lines 918-940. -/
def updateDYN : Act Robot ℤ := do
  let p ← getParREG
  let r ← read
  let _ ← setParDYN (dynOfReg r.n p)
  pure 1
/-- `update_inertial_REG`, lines 942-973. -/
def updateREG : Act Robot ℤ := do
  let p ← getParDYN
  let r ← read
  let _ ← setParREG (regOfDyn r.n p)
  pure 1

/-! ## Files -/

/-- The local vectors of `load_conf_par`, lines 639-644, and `load_par_REG`, lines 727-728. -/
structure Loc where
  p : List Num
  dl : List Num
  k : List Num
  d : List Num
  dm : List Num
  mm : List Num

/-- `v(i) = x` on a CasADi column; an index outside the column throws. -/
def wr (v : List Num) (i : ℕ) (x : Num) : Option (List Num) := if i < v.length then some (v.set i x) else none

/-- `param(pos) = node[key].as<double>()` for consecutive keys, lines 659-668 and 743-752. -/
def readKeys (nd : Yaml) : List String → ℕ → Act Loc Unit
  | [], _ => pure ()
  | key :: ks, pos => do
    let x ← ofYaml ((nd.getM key).bind Yaml.asD)
    let s ← read
    let p ← ofExc (wr s.p pos x)
    modify fun s => { s with p := p }
    readKeys nd ks (pos + 1)

/-- The ten keys of an inertial node. -/
def keys (com : String) : List String :=
  ["mass", com ++ "x", com ++ "y", com ++ "z", "Ixx", "Ixy", "Ixz", "Iyy", "Iyz", "Izz"]

/-- `for (j < ord) par(ord*i + j) = xs[j]`: reading `xs` outside is undefined, writing `par` outside throws. -/
def copyOrd (get : Loc → List Num) (set : Loc → List Num → Loc) (ord i : ℕ) (xs : List Num) : ℕ → Act Loc Unit
  | 0 => pure ()
  | m + 1 => do
    let j := ord - (m + 1)
    let x ← ofIdx xs[j]?
    let s ← read
    let v ← ofExc (wr (get s) (ord * i + j) x)
    modify fun s => set s v
    copyOrd get set ord i xs m

/-- Lines 672-677: the friction coefficients of a link. -/
def copyDl (ord i : ℕ) (xs : List Num) : Act Loc Unit := copyOrd Loc.dl (fun s v => { s with dl := v }) ord i xs ord

/-- Loop over the links in `load_conf_par`, lines 651-679. -/
def confLinks (n ord : ℕ) : ℕ → List (Option String × Yaml) → Act Loc Unit
  | _, [] => pure ()
  | i, (key, nd) :: rest => do
    let inertial ← ofYaml (nd.getC "inertial")
    if i = n then pure ()
    else do
      let _ ← ofYaml key
      readKeys inertial (keys "CoM_") (10 * i)
      let fr ← ofYaml (nd.getC "friction")
      if fr.isDef then do
        let dl ← ofYaml ((fr.getC "Dl").bind (Yaml.asVec Yaml.asD))
        copyDl ord i dl
      confLinks n ord (i + 1) rest

/-- One of the blocks of lines 690-703. -/
def readOrd (key : String) (get : Loc → List Num) (set : Loc → List Num → Loc) (ord i : ℕ) (nd : Yaml) : Act Loc Unit :=
  if 0 < ord then do
    let xs ← ofYaml ((nd.getC key).bind (Yaml.asVec Yaml.asD))
    copyOrd get set ord i xs ord
  else pure ()

/-- Loop over the elastic joints, lines 684-708. -/
def confJoints (r : Robot) : ℕ → List (Option String × Yaml) → Act Loc Unit
  | _, [] => pure ()
  | i, (key, nd) :: rest =>
    if i = r.ne then pure ()
    else do
      let _ ← ofYaml key
      readOrd "K" Loc.k (fun s v => { s with k := v }) r.kOrd i nd
      readOrd "D" Loc.d (fun s v => { s with d := v }) r.dOrd i nd
      readOrd "Dm" Loc.dm (fun s v => { s with dm := v }) r.dmOrd i nd
      let m ← ofYaml ((nd.getC "Mm").bind Yaml.asD)
      let s ← read
      let v ← ofExc (wr s.mm i m)
      modify fun s => { s with mm := v }
      confJoints r (i + 1) rest

/-- The `try` block of `load_conf_par`, lines 646-711; `file` is `none` if it cannot be loaded. -/
def confBody (r : Robot) (file : Option Yaml) : Act Loc Unit := do
  let config ← ofYaml file
  let dyn ← ofYaml (config.getM "dynamics")
  confLinks r.n r.dlOrd 0 dyn.items
  if r.elastic then do
    let el ← ofYaml (config.getM "elastic")
    if el.isDef then do
      let js ← ofYaml (el.getM "joints")
      confJoints r 0 js.items

/-- `casadi::SX(k,1)`: a column without entries, whose values are 0, lines 639-644. -/
def zeros (k : ℕ) : List Num := List.replicate k (some 0)

/-- Fresh local vectors. -/
def Loc.init (r : Robot) : Loc :=
  ⟨zeros (10 * r.n), zeros (r.dlOrd * r.n), zeros (r.ne * r.kOrd), zeros (r.ne * r.dOrd), zeros (r.ne * r.dmOrd), zeros r.ne⟩

/-- `if (c) args[k] = v;` -/
def setWhen (c : Prop) [Decidable c] (k : String) (v : List Num) (r : Robot) : Robot := if c then r.setArgs k v else r

/-- Lines 715-720, in this order. -/
def storeConf (l : Loc) (r : Robot) : Robot :=
  setWhen (r.elastic = true) "par_Mm" l.mm <| setWhen (0 < r.dmOrd) "par_Dm" l.dm <| setWhen (0 < r.dOrd) "par_D" l.d <|
    setWhen (0 < r.kOrd) "par_K" l.k <| setWhen (0 < r.dlOrd) "par_Dl" l.dl <| r.setArgs "par_DYN" l.p

/-- Run a block with local vectors inside `try … catch (YAML::Exception)`. -/
def withLoc (body : Act Loc Unit) (l : Loc) : Act Robot Loc := fun r =>
  match body l with
  | .ok _ l' => .ok l' r
  | .yaml l' => .ok l' r
  | .exc _ => .exc r
  | .ub => .ub

/-- The size of `param_Dl` is not negative (otherwise its constructor throws), lines 640 and 728. -/
def DlSize (r : Robot) : Prop := 0 ≤ r.dlI * r.n
/-- The sizes of the local vectors are not negative, lines 640-643. -/
def LocSizes (r : Robot) : Prop := DlSize r ∧ 0 ≤ r.ne * r.kI ∧ 0 ≤ r.ne * r.dI ∧ 0 ≤ r.ne * r.dmI

/-- `load_conf_par`, lines 637-723. -/
def loadConfPar (file : Option Yaml) (upd : Bool) : Act Robot ℤ := do
  let r ← read
  ofExc (if LocSizes r then some () else none)
  let l ← withLoc (confBody r file) (Loc.init r)
  modify (storeConf l)
  if upd then do
    let _ ← updateREG
    pure 1
  else pure 1

/-- Loop of `load_par_REG`, lines 736-763. -/
def regLinks (n ord : ℕ) : ℕ → List (Option String × Yaml) → Act Loc Unit
  | _, [] => pure ()
  | i, (key, nd) :: rest =>
    if i = n then pure ()
    else do
      let _ ← ofYaml key
      readKeysC nd (keys "m_CoM_") (10 * i)
      let dl ← ofYaml (nd.getC "Dl")
      if dl.isDef then do
        let xs ← ofYaml (dl.asVec Yaml.asD)
        copyDl ord i xs
      regLinks n ord (i + 1) rest
where
  /-- As `readKeys`, with the const lookup of `node.second[key]`. -/
  readKeysC (nd : Yaml) : List String → ℕ → Act Loc Unit
    | [], _ => pure ()
    | key :: ks, pos => do
      let x ← ofYaml ((nd.getC key).bind Yaml.asD)
      let s ← read
      let p ← ofExc (wr s.p pos x)
      modify fun s => { s with p := p }
      readKeysC nd ks (pos + 1)

/-- The `try` block of `load_par_REG`, lines 731-765. -/
def regBody (r : Robot) (file : Option Yaml) : Act Loc Unit := do
  let config ← ofYaml file
  let inertial ← ofYaml (config.getM "inertial")
  regLinks r.n r.dlOrd 0 inertial.items

/-- `load_par_REG`, lines 725-773 (the returned matrix is the stored one). -/
def loadParREG (file : Option Yaml) (upd : Bool) : Act Robot (List Num) := do
  let r ← read
  ofExc (if DlSize r then some () else none)
  let l ← withLoc (regBody r file) (Loc.init r)
  modify fun r => r.setArgs "par_REG" l.p
  modify fun r => if 0 < r.dlOrd then r.setArgs "par_Dl" l.dl else r
  if upd then do
    let _ ← updateDYN
    pure l.p
  else pure l.p

/-- Loop of `load_par` over the entries of the file, lines 780-786. -/
def loadAll : List (Option String × Yaml) → Act Robot Unit
  | [] => pure ()
  | (key, nd) :: rest => do
    let xs ← ofYaml (nd.asVec Yaml.asD)
    let k ← ofYaml key
    modify fun r => r.touchArg k
    assign k xs
    loadAll rest

/-- Loop of `load_par` over the list of names, lines 788-794. -/
def loadSome (file : Yaml) : List String → Act Robot Unit
  | [] => pure ()
  | k :: rest => do
    let xs ← ofYaml ((file.getM k).bind (Yaml.asVec Yaml.asD))
    modify fun r => r.touchArg k
    assign k xs
    loadSome file rest

/-- `load_par`, lines 775-801. -/
def loadPar (file : Option Yaml) (names : List String) : Act Robot ℤ :=
  tryYaml (do
    let y ← ofYaml file
    if names = [] then loadAll y.items else loadSome y names
    pure 1) (pure 0)

/-- `"link" + std::to_string(i+1)`, line 853. -/
def linkName (i : ℕ) : String := "link" ++ toString (i + 1)

/-- Nodes `linkInertia` and `linkNode`, lines 854-868; reading `par_REG` outside throws. -/
def linkNode (par : List Num) (i : ℕ) : Option Yaml := do
  let inertia ← (List.range 10).foldlM (fun y k => (par[10 * i + k]?).map fun x => y.setKey ((keys "m_CoM_").getD k "") (Yaml.ofD x)) Yaml.undef
  pure (Yaml.undef.setKey "inertial" inertia)

/-- The tree written by `save_par_REG`, lines 837-873. -/
def regTree (n : ℕ) (par : List Num) : Option Yaml := do
  let dyn ← (List.range n).foldlM (fun y i => (linkNode par i).map fun nd => y.setKey (linkName i) nd) Yaml.null
  pure (Yaml.undef.setKey "dynamics" dyn)

/-- `save_par_REG`, lines 831-883: the result is the contents of the file. -/
def saveParREG : Act Robot Yaml := do
  modify fun r => r.touchArg "par_REG"
  let r ← read
  ofExc (regTree r.n (r.arg "par_REG"))

/-- Loop of `save_par`, lines 893-905. -/
def saveLoop : List String → Yaml → Act Robot Yaml
  | [], y => pure y
  | k :: rest, y => do
    let v ← getArg k
    saveLoop rest (y.setKey k (Yaml.ofVec v))

/-- `save_par`, lines 885-916: the result is the contents of the file. -/
def savePar (names : List String) : Act Robot Yaml := saveLoop names Yaml.null

/-! ## Functions and symbolic selectivity -/

/-- The symbolic entries of `model[arg]`, lines 1004-1011: `symb_flag[i]` for every row. -/
def pickRows (fl : List ℤ) (A : SX) : Option (List Expr) :=
  ((List.range A.rows).mapM fun i => (fl[i]?).map fun f => if f = 0 then [] else [A.e i 0]).map List.flatten

/-- Loop over the arguments in `add_function`, lines 989-1021; `symb[arg]` and `model[arg]` are inserted when missing. -/
def collect : List String → Act Robot (List (List Expr))
  | [] => pure []
  | a :: rest => do
    modify fun r => { r with symb := r.symb.ins a [], model := r.model.ins a (SX.zeros 0 0) }
    let r ← read
    let l ← ofIdx (pickRows (r.flags a) (r.mod a))
    let ls ← collect rest
    pure (l :: ls)

/-- `add_function`, lines 975-1029. -/
def addFunction (f : String) (expr : SX) (fargs : List String) (descr : String) (overwrite : Bool) : Act Robot ℤ := do
  let r ← read
  if !overwrite && r.model.has f then pure 0
  else do
    modify fun r => { r with model := r.model.put f expr, funArgs := r.funArgs.put f fargs, funDescr := r.funDescr.put f descr }
    let inputs ← collect fargs
    let fn ← ofExc (mkFun (cName r.name f) inputs expr)
    modify fun r => { r with funs := r.funs.put f fn }
    pure 1

/-- `model[par](i) = c`; an index outside the matrix throws. -/
def setRow (A : SX) (i : ℕ) (e : Expr) : Option SX :=
  if i < A.rows ∧ A.cols = 1 then some { A with e := fun a b => if a = i ∧ b = 0 then e else A.e a b } else none

/-- Loop of `subs_symb_par`, lines 1067-1071.  A non-symbolic parameter whose value is not a number is outside the model (`ub`). -/
def subsLoop (par : String) : ℕ → List ℤ → Act Robot Unit
  | _, [] => pure ()
  | i, f :: fs => do
    if f = 0 then do
      let r ← read
      let x ← ofExc (r.arg par)[i]?
      let c ← ofIdx x
      let A ← ofExc (setRow (r.mod par) i (.const c))
      modify fun r => { r with args := r.args.ins par [], model := r.model.put par A }
    subsLoop par (i + 1) fs

/-- `subs_symb_par`, lines 1059-1076. -/
def subsSymb (par : String) : Act Robot Unit := do
  let r ← read
  modify fun r => { r with symb := r.symb.ins par [] }
  subsLoop par 0 (r.flags par)

/-- `init_symb_parameters`, lines 1078-1084. -/
def initSymb : Act Robot Unit := do
  let r ← read
  r.symb.foldl (fun (a : Act Robot Unit) p => a >>= fun _ => subsSymb p.1) (pure ())

/-- `obtain_symb_parameters`, lines 1086-1099 (without the insertion of empty entries into `symb`, which all exist when it is called). -/
def obtainSymb (r : Robot) (sure possible : List String) : List String :=
  sure ++ possible.filter fun p => (r.flags p).any fun v => v ≠ 0

/-- Entries of a column kept by the loop of lines 1110-1116: the compaction in place never overwrites an entry that is still to be read
(`sz ≤ i`), so it is the selection of the flagged entries.  An index outside the column throws. -/
def keep {α : Type} (fl : List ℤ) (get : ℕ → Option α) : Option (List α) :=
  ((List.range fl.length).mapM fun i => if fl.getD i 0 = 0 then some [] else (get i).map fun x => [x]).map List.flatten

/-- One iteration of `update_symb_parameters`, lines 1103-1121.  When it throws, the partial compaction of the current entry is not tracked. -/
def compact (par : String) (fl : List ℤ) : Act Robot Unit := do
  let r ← read
  let m ← ofExc (keep fl fun i => if i < (r.mod par).rows * (r.mod par).cols then some ((r.mod par).e (i % (r.mod par).rows) (i / (r.mod par).rows)) else none)
  let a ← ofExc (keep fl fun i => (r.arg par)[i]?)
  modify fun r => { r with model := r.model.put par (SX.ofList m), args := r.args.put par a }

/-- `update_symb_parameters`, lines 1101-1123. -/
def updateSymb : Act Robot Unit := do
  let r ← read
  r.symb.foldl (fun (a : Act Robot Unit) p => a >>= fun _ => compact p.1 p.2) (pure ())

end Robot

end

end Thunder
