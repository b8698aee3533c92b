import Verif.Model.Yaml
import Verif.Model.Inertia
import Mathlib.Logic.Function.Basic

/-!
# The generated wrapper class (`src/thunder/thunder_robot_template/thunder_robot.cpp`)

State and public operations of `thunder_robot`.  Line numbers refer to that file.  `Eigen::VectorXd` values are lists of `Num`; entries
after a resize are undetermined (`none`).
-/

namespace Thunder.Wrap

noncomputable section

/-- The constants written into the header, thunder_robot.h:53-64. -/
structure Cfg where
  n : ℕ
  ne : ℕ
  kOrd : ℕ
  dOrd : ℕ
  dlOrd : ℕ
  dmOrd : ℕ

/-- The member vectors, thunder_robot.h:21-24. -/
inductive Field
  | q | dq | ddq | d3q | d4q | dqr | ddqr | x | dx | ddx | ddxr | w
  | REG | DYN | Dl | K | D | Dm | Mm | DH | W2L | EE | G
  deriving DecidableEq

/-- The selection vectors, thunder_robot.h:25. -/
inductive SField
  | DH | G | W2L | EE
  deriving DecidableEq

/-- An object. -/
structure Obj where
  vec : Field → List Num
  symb : SField → List ℤ

/-- Assignment to a member. -/
def Obj.set (s : Obj) (f : Field) (v : List Num) : Obj := { s with vec := Function.update s.vec f v }
/-- Assignment to a vector of flags. -/
def Obj.setSymb (s : Obj) (f : SField) (v : List ℤ) : Obj := { s with symb := Function.update s.symb f v }

/-- Sizes given by `resizeVariables`, lines 12-35. -/
def Cfg.size (c : Cfg) : Field → ℕ
  | .q | .dq | .ddq | .d3q | .d4q | .dqr | .ddqr => c.n
  | .x | .dx | .ddx | .ddxr => c.ne
  | .w => 6
  | .REG | .DYN => 10 * c.n
  | .Dl => c.dlOrd * c.n
  | .K => c.kOrd * c.ne
  | .D => c.dOrd * c.ne
  | .Dm => c.dmOrd * c.ne
  | .Mm => c.ne
  | .DH => c.n * 4
  | .W2L => 6
  | .EE => 6
  | .G => 3

/-- Sizes of the selection vectors, lines 36-45. -/
def Cfg.symbSize (c : Cfg) : SField → ℕ
  | .DH => c.n * 4
  | .G => 3
  | .W2L => 6
  | .EE => 6

/-- The constructor, lines 8-46. -/
def init (c : Cfg) : Obj := ⟨fun f => List.replicate (c.size f) (some 0), fun f => List.replicate (c.symbSize f) 0⟩

/-- Outcome of a member function: normal return, `YAML::Exception` (with the state at that point), or undefined behaviour (access outside a
vector). -/
inductive Out
  | ok (s : Obj)
  | exc (s : Obj)
  | ub

/-- One statement after the other. -/
def Out.bind (o : Out) (k : Obj → Out) : Out :=
  match o with
  | .ok s => k s
  | .exc s => .exc s
  | .ub => .ub

/-- A YAML operation in state `s`. -/
def yaml {α : Type} (o : Option α) (s : Obj) (k : α → Out) : Out :=
  match o with
  | some a => k a
  | none => .exc s

/-- An access that is undefined when it fails. -/
def must {α : Type} (o : Option α) (k : α → Out) : Out :=
  match o with
  | some a => k a
  | none => .ub

/-- `v.segment(off, k) << xs`, or `k` single assignments `v(off + j) = xs[j]`. -/
def setSeg (v : List Num) (off : ℕ) (xs : List Num) : Option (List Num) :=
  if off + xs.length ≤ v.length then some (v.take off ++ xs ++ v.drop (off + xs.length)) else none

/-- `v.resize(k)` on an Eigen vector: nothing if the size is the same, otherwise new storage with undetermined contents. -/
def resize (v : List Num) (k : ℕ) : List Num := if v.length = k then v else List.replicate k none

/-- `v.conservativeResize(k)`. -/
def conservativeResize (v : List Num) (k : ℕ) : List Num := v.take k ++ List.replicate (k - v.length) none

/-- `update_inertial_REG`, lines 175-188. -/
def updateREG (c : Cfg) (s : Obj) : Out :=
  if (s.vec .DYN).length < 10 * c.n then .ub
  else must (setSeg (s.vec .REG) 0 (regOfDynW c.n (s.vec .DYN))) fun v => .ok (s.set .REG v)

/-- `update_inertial_DYN`, lines 161-173. -/
def updateDYN (c : Cfg) (s : Obj) : Out :=
  if (s.vec .REG).length < 10 * c.n then .ub
  else must (setSeg (s.vec .DYN) 0 (dynOfRegW c.n (s.vec .REG))) fun v => .ok (s.set .DYN v)

/-- Setters that compare with a constant: `set_q` … `set_ddxr`, `set_w`, lines 65-159. -/
inductive VarField
  | q | dq | ddq | d3q | d4q | dqr | ddqr | x | dx | ddx | ddxr | w
  deriving DecidableEq

/-- Setters that compare with the current size of the member: `set_par_K` … `set_par_Ln2EE` without `set_par_DHtable`, lines 210-248 and
258-280. -/
inductive ParField
  | K | D | Dm | Mm | Dl | G | W2L | EE
  deriving DecidableEq

/-- The member that a setter changes, lines 65-159. -/
def VarField.field : VarField → Field
  | .q => .q | .dq => .dq | .ddq => .ddq | .d3q => .d3q | .d4q => .d4q | .dqr => .dqr | .ddqr => .ddqr
  | .x => .x | .dx => .dx | .ddx => .ddx | .ddxr => .ddxr | .w => .w
/-- The member that a setter of parameters changes, lines 210-280. -/
def ParField.field : ParField → Field
  | .K => .K | .D => .D | .Dm => .Dm | .Mm => .Mm | .Dl => .Dl | .G => .G | .W2L => .W2L | .EE => .EE

/-- The constant a variable setter compares with: `n_joints`, `numElasticJoints` or 6. -/
def VarField.expected (c : Cfg) : VarField → ℕ
  | .q | .dq | .ddq | .d3q | .d4q | .dqr | .ddqr => c.n
  | .x | .dx | .ddx | .ddxr => c.ne
  | .w => 6

/-- The setters of variables, lines 65-159: a vector of another size is only reported. -/
def setVar (c : Cfg) (f : VarField) (v : List Num) (s : Obj) : Out :=
  if v.length = f.expected c then .ok (s.set f.field v) else .ok s

/-- The setters of parameters, lines 210-280: a vector of another size is only reported. -/
def setPar (f : ParField) (v : List Num) (s : Obj) : Out :=
  if v.length = (s.vec f.field).length then .ok (s.set f.field v) else .ok s

/-- `setArguments`, lines 54-63. -/
def setArguments (c : Cfg) (q dq dqr ddqr : List Num) (s : Obj) : Out :=
  if q.length = c.n ∧ dq.length = c.n ∧ dqr.length = c.n ∧ ddqr.length = c.n then
    .ok ((((s.set .q q).set .dq dq).set .dqr dqr).set .ddqr ddqr)
  else .ok s

/-- `set_par_DHtable`, lines 250-256: the argument is a matrix (`cols` columns, entries in column-major order).  Assigning a matrix with more
than one column to a vector is an Eigen assertion failure (undefined without assertions). -/
def setDH (cols : ℕ) (v : List Num) (s : Obj) : Out :=
  if v.length = (s.vec .DH).length then (if cols = 1 then .ok (s.set .DH v) else .ub) else .ok s

/-- `set_par_DYN`, lines 190-198. -/
def setDYN (c : Cfg) (v : List Num) (upd : Bool) (s : Obj) : Out :=
  let s := if v.length = (s.vec .DYN).length then s.set .DYN v else s
  if upd then updateREG c s else .ok s

/-- `set_par_REG`, lines 200-208. -/
def setREG (c : Cfg) (v : List Num) (upd : Bool) (s : Obj) : Out :=
  let s := if v.length = (s.vec .REG).length then s.set .REG v else s
  if upd then updateDYN c s else .ok s

/-- Keys of one inertial node in reading order, lines 339-348 (`m_CoM_`) and 467-476 (`CoM_`). -/
def inertialKeys (com : String) : List String :=
  ["mass", com ++ "x", com ++ "y", com ++ "z", "Ixx", "Ixy", "Ixz", "Iyy", "Iyz", "Izz"]

/-- The ten `inertial[key].as<double>()`. -/
def readInertial (com : String) (y : Yaml) : Option (List Num) := (inertialKeys com).mapM fun k => (y.getM k).bind Yaml.asD

/-- Loop of `load_par_REG`, lines 335-353. -/
def regLoop (c : Cfg) : List (Option String × Yaml) → ℕ → Obj → Out
  | [], _, s => .ok s
  | (key, nd) :: rest, i, s =>
    if i = c.n then .ok s else
    yaml (nd.getC "inertial") s fun inertial =>
    yaml key s fun _ =>
    yaml (readInertial "m_CoM_" inertial) s fun p =>
    must (setSeg (s.vec .REG) (10 * i) p) fun v =>
    regLoop c rest (i + 1) (s.set .REG v)

/-- Result of a member function with `try`/`catch (YAML::Exception)` around its body: `none` is undefined behaviour. -/
def Out.caught : Out → Option Obj
  | .ok s => some s
  | .exc s => some s
  | .ub => none

/-- `load_par_REG`, lines 326-360; `file` is the parsed file, `none` if it cannot be loaded. -/
def loadREG (c : Cfg) (file : Option Yaml) (upd : Bool) (s : Obj) : Option Obj :=
  Out.caught <|
    yaml file s fun config =>
    yaml (config.getM "dynamics") s fun dyn =>
    if dyn.isDef then
      (regLoop c dyn.items 0 s).bind fun s => if upd then updateDYN c s else .ok s
    else .ok s

/-- `for i < k: if (flags[off+i]) out.push(v[i])`; `none` is an access outside a vector. -/
def pick (v : List Num) (flags : List ℤ) (off k : ℕ) : Option (List Num) :=
  ((List.range k).mapM fun i => (flags[off + i]?).bind fun f => if f = 0 then some [] else (v[i]?).map fun x => [x]).map List.flatten

/-- `if (node["symb"]) symb = node["symb"].as<std::vector<int>>()`, e.g. lines 373-377. -/
def readSymb (nd : Yaml) (f : SField) (s : Obj) (k : Obj → Out) : Out :=
  yaml (nd.getM "symb") s fun sy =>
  if sy.isDef then yaml (sy.asVec Yaml.asI) s fun fl => k (s.setSymb f fl) else k s

/-- Section `kinematics`, lines 367-393.  The `sz1` values are written into the first entries of `par_DHtable` (which has `4·n`), the rest
is cut off. -/
def loadKin (c : Cfg) (config : Yaml) (s : Obj) : Out :=
  yaml (config.getM "kinematics") s fun kin =>
  if kin.isDef then
    let s := s.set .DH (resize (s.vec .DH) (c.n * 4))
    yaml ((kin.getM "DH").bind (Yaml.asVec Yaml.asD)) s fun dh =>
    readSymb kin .DH s fun s =>
    must (pick dh (s.symb .DH) 0 dh.length) fun sel =>
    must (setSeg (s.vec .DH) 0 sel) fun v =>
    .ok (s.set .DH (conservativeResize v sel.length))
  else .ok s

/-- Sections `Base_to_L0` (lines 395-424) and `Ln_to_EE` (lines 426-455). -/
def loadFrame (name : String) (f : Field) (sf : SField) (config : Yaml) (s : Obj) : Out :=
  yaml (config.getM name) s fun fr =>
  if fr.isDef then
    let s := s.set f (resize (s.vec f) 6)
    readSymb fr sf s fun s =>
    yaml ((fr.getM "tr").bind (Yaml.asVec Yaml.asD)) s fun tr =>
    yaml ((fr.getM "ypr").bind (Yaml.asVec Yaml.asD)) s fun ypr =>
    must (pick tr (s.symb sf) 0 3) fun a =>
    must (pick ypr (s.symb sf) 3 3) fun b =>
    must (setSeg (s.vec f) 0 (a ++ b)) fun v =>
    .ok (s.set f (conservativeResize v (a ++ b).length))
  else .ok s

/-- `for (j < ord) par(ord*i + j) = v[j]`, e.g. lines 483-485. -/
def writeOrd (ord i : ℕ) (xs v : List Num) : Option (List Num) :=
  if xs.length < ord then none else setSeg v (ord * i) (xs.take ord)

/-- Loop over the links in `load_conf`, lines 462-488. -/
def dynLoop (c : Cfg) : List (Option String × Yaml) → ℕ → Obj → Out
  | [], _, s => .ok s
  | (key, nd) :: rest, i, s =>
    if i = c.n then .ok s else
    yaml (nd.getC "inertial") s fun inertial =>
    yaml key s fun _ =>
    yaml (readInertial "CoM_" inertial) s fun p =>
    must (setSeg (s.vec .DYN) (10 * i) p) fun v =>
    let s := s.set .DYN v
    yaml (nd.getC "friction") s fun fric =>
    if fric.isDef then
      yaml ((fric.getC "Dl").bind (Yaml.asVec Yaml.asD)) s fun dl =>
      must (writeOrd c.dlOrd i dl (s.vec .Dl)) fun u =>
      dynLoop c rest (i + 1) (s.set .Dl u)
    else dynLoop c rest (i + 1) s

/-- Section `dynamics`, lines 458-490. -/
def loadDyn (c : Cfg) (upd : Bool) (config : Yaml) (s : Obj) : Out :=
  yaml (config.getM "dynamics") s fun dyn =>
  if dyn.isDef then
    (dynLoop c dyn.items 0 s).bind fun s => if upd then updateREG c s else .ok s
  else .ok s

/-- Section `gravity`, lines 492-513. -/
def loadGrav (config : Yaml) (s : Obj) : Out :=
  yaml (config.getM "gravity") s fun gr =>
  if gr.isDef then
    let s := s.set .G (resize (s.vec .G) 3)
    readSymb gr .G s fun s =>
    yaml ((gr.getM "value").bind (Yaml.asVec Yaml.asD)) s fun g =>
    must (pick g (s.symb .G) 0 3) fun sel =>
    must (setSeg (s.vec .G) 0 sel) fun v =>
    .ok (s.set .G (conservativeResize v sel.length))
  else .ok s

/-- `for (j < ord) { v = node[key].as<…>(); par(ord*i+j) = v[j]; }`, e.g. lines 523-527: nothing is read when `ord = 0`. -/
def readOrd (ord i : ℕ) (key : String) (f : Field) (nd : Yaml) (s : Obj) (k : Obj → Out) : Out :=
  if ord = 0 then k s else
  yaml ((nd.getC key).bind (Yaml.asVec Yaml.asD)) s fun xs =>
  must (writeOrd ord i xs (s.vec f)) fun v => k (s.set f v)

/-- Loop over the elastic joints, lines 519-544. -/
def elaLoop (c : Cfg) : List (Option String × Yaml) → ℕ → Obj → Out
  | [], _, s => .ok s
  | (key, nd) :: rest, i, s =>
    if i = c.ne then .ok s else
    yaml key s fun _ =>
    readOrd c.kOrd i "K" .K nd s fun s =>
    readOrd c.dOrd i "D" .D nd s fun s =>
    readOrd c.dmOrd i "Dm" .Dm nd s fun s =>
    yaml ((nd.getC "Mm").bind Yaml.asD) s fun m =>
    must (setSeg (s.vec .Mm) i [m]) fun v =>
    elaLoop c rest (i + 1) (s.set .Mm v)

/-- Section `elastic`, lines 516-545. -/
def loadEla (c : Cfg) (config : Yaml) (s : Obj) : Out :=
  yaml (config.getM "elastic") s fun el =>
  if el.isDef then yaml (el.getM "joints") s fun js => elaLoop c js.items 0 s else .ok s

/-- Body of `load_conf` after `LoadFile`. -/
def loadBody (c : Cfg) (upd : Bool) (config : Yaml) (s : Obj) : Out :=
  (loadKin c config s).bind fun s =>
  (loadFrame "Base_to_L0" .W2L .W2L config s).bind fun s =>
  (loadFrame "Ln_to_EE" .EE .EE config s).bind fun s =>
  (loadDyn c upd config s).bind fun s =>
  (loadGrav config s).bind fun s =>
  loadEla c config s

/-- `load_conf`, lines 362-549. -/
def loadConf (c : Cfg) (file : Option Yaml) (upd : Bool) (s : Obj) : Option Obj :=
  Out.caught <| yaml file s fun config => loadBody c upd config s

/-- `links_prop[i].name`, line 599. -/
def linkName (i : ℕ) : String := "link" ++ toString (i + 1)

/-- One `linkNode` of `fillInertialYaml`, lines 741-762. -/
def linkNode (com : String) (p : ℕ → Num) (dl : List Num) : Yaml :=
  let inertia := ((List.range 10).foldl (fun y k => y.setKey ((inertialKeys com).getD k "") (Yaml.ofD (p k))) Yaml.undef)
  let fric := Yaml.undef.setKey "Dl" (Yaml.ofVec dl)
  (Yaml.undef.setKey "inertial" inertia).setKey "friction" fric

/-- The tree written by `save_par_REG` (lines 590-625) and `save_par_DYN` (lines 627-662) through `fillInertialYaml` (lines 729-767).  With no
joint the node `dynamics` stays null. -/
def inertialFile (c : Cfg) (com : String) (par dl : List Num) : Yaml :=
  Yaml.undef.setKey "dynamics" ((List.range c.n).foldl (fun y i => y.setKey (linkName i)
    (linkNode com (fun k => par.getD (10 * i + k) none) ((List.range c.dlOrd).map fun j => dl.getD (c.dlOrd * i + j) none))) Yaml.null)

/-- `save_par_REG`, lines 590-625. -/
def saveREG (c : Cfg) (s : Obj) : Yaml := inertialFile c "m_CoM_" (s.vec .REG) (s.vec .Dl)
/-- `save_par_DYN`, lines 627-662. -/
def saveDYN (c : Cfg) (s : Obj) : Yaml := inertialFile c "CoM_" (s.vec .DYN) (s.vec .Dl)

/-- Calls that change an object. -/
inductive Call
  | setVar (f : VarField) (v : List Num)
  | setPar (f : ParField) (v : List Num)
  | setArguments (q dq dqr ddqr : List Num)
  | setDH (cols : ℕ) (v : List Num)
  | setDYN (v : List Num) (upd : Bool)
  | setREG (v : List Num) (upd : Bool)
  | loadREG (file : Option Yaml) (upd : Bool)
  | loadConf (file : Option Yaml) (upd : Bool)
  /-- `resizeVariables` is public, thunder_robot.h:74. -/
  | resizeVariables

/-- Effect of a call; `none` is undefined behaviour. -/
def Call.run (c : Cfg) : Call → Obj → Option Obj
  | .setVar f v, s => (Wrap.setVar c f v s).caught
  | .setPar f v, s => (Wrap.setPar f v s).caught
  | .setArguments a b d e, s => (Wrap.setArguments c a b d e s).caught
  | .setDH k v, s => (Wrap.setDH k v s).caught
  | .setDYN v u, s => (Wrap.setDYN c v u s).caught
  | .setREG v u, s => (Wrap.setREG c v u s).caught
  | .loadREG f u, s => Wrap.loadREG c f u s
  | .loadConf f u, s => Wrap.loadConf c f u s
  | .resizeVariables, _ => some (init c)

/-- A history of calls on an object. -/
def runAll (c : Cfg) : List Call → Obj → Option Obj
  | [], s => some s
  | k :: ks, s => (k.run c s).bind (runAll c ks)

end

end Thunder.Wrap
