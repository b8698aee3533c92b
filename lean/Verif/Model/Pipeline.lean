import Verif.Model.Config
import Verif.Model.Regressors

/-!
# Computing the library of a robot (`robot_from_file`)

The functions `compute_*` of src/kinematics.cpp, src/dynamics.cpp, src/regressors.cpp and src/userDefined.cpp as operations on a `Robot`, and
`robot_from_file` (src/robot.cpp:1126-1159).  Paths are relative to /repo/src/thunder.

Each `compute_*` reads the symbolic vectors from `model` and registers expressions.  The expressions themselves are those of
`Verif.Model.Kinematics`, `Verif.Model.Dynamics` and `Verif.Model.Regressors`, as functions of the vectors read.

Simplifications: where a `compute_*` reads back a matrix registered earlier in the same run (`T_0_i`, `J_i`, `J_ee`, `M`, `C`, `G`, `k`, `d`, …), the
model uses the expression that was registered.  The return values of the `compute_*` functions, which
`robot_from_file` ignores, and console messages are omitted.
-/

open scoped Classical

namespace Thunder

noncomputable section

namespace Robot

open Act

/-- The symbolic vectors and the description of the robot, as read at the beginning of the `compute_*` functions. -/
def baseOf (r : Robot) : Base where
  n := r.n
  types := r.types
  q := r.mod "q"
  dq := r.mod "dq"
  ddq := r.mod "ddq"
  d3q := r.mod "d3q"
  dqr := r.mod "dqr"
  ddqr := r.mod "ddqr"
  w := r.mod "w"
  x := r.mod "x"
  dx := r.mod "dx"
  ddx := r.mod "ddx"
  dh := r.mod "par_DHtable"
  w2l := r.mod "par_world2L0"
  ee := r.mod "par_Ln2EE"
  g := r.mod "par_gravity"
  dyn := r.mod "par_DYN"
  dl := r.mod "par_Dl"
  parK := r.mod "par_K"
  parD := r.mod "par_D"
  parDm := r.mod "par_Dm"
  parMm := r.mod "par_Mm"

/-- One registration: the two lists of names are the arguments of `obtain_symb_parameters`. -/
structure Reg where
  name : String
  expr : SX
  sure : List String
  possible : List String
  descr : String

/-- `arg_list = robot.obtain_symb_parameters(sure, possible); robot.add_function(name, expr, arg_list, descr);` with the default
`overwrite = true` (library/robot.h:201), so that the result is always 1.  Building `expr` may have thrown. -/
def register (g : Reg) : Act Robot Unit := do
  let r ← read
  ofExc (if g.expr.ok then some () else none)
  let _ ← addFunction g.name g.expr (obtainSymb r g.sure g.possible) g.descr true
  pure ()

/-- Calls of `add_function` one after the other. -/
def registerAll : List Reg → Act Robot Unit
  | [] => pure ()
  | g :: gs => do
    register g
    registerAll gs

/-- `if (robot.model.count(k) == 0) a` -/
def unlessHas (k : String) (a : Act Robot Unit) : Act Robot Unit := do
  let r ← read
  if r.model.has k then pure () else a

variable [Fl]

/-! ## src/kinematics.cpp -/

/-- Lines 131-152. -/
def chainRegs (B : Base) : List Reg :=
  [⟨"T_0", B.Ti 0, [], ["par_world2L0"], "relative transformation from frame base to frame 1"⟩,
    ⟨"T_0_0", B.T0 0, [], ["par_world2L0"], "absolute transformation from frame base to frame 1"⟩]
  ++ (List.range B.n).flatMap (fun i =>
    [⟨"T_" ++ toString (i + 1), B.Ti (i + 1), ["q"], ["par_DHtable"],
        "relative transformation from frame" ++ toString i ++ "to frame " ++ toString (i + 1)⟩,
      ⟨"T_0_" ++ toString (i + 1), B.T0 (i + 1), ["q"], ["par_DHtable", "par_world2L0"],
        "absolute transformation from frame base to frame " ++ toString (i + 1)⟩])
  ++ [⟨"T_0_" ++ toString (B.n + 1), B.T0ee, ["q"], ["par_DHtable", "par_world2L0", "par_Ln2EE"],
      "absolute transformation from frame base to end_effector"⟩,
    ⟨"T_0_ee", B.T0ee, ["q"], ["par_DHtable", "par_world2L0", "par_Ln2EE"], "absolute transformation from frame 0 to end_effector"⟩]

/-- `compute_chain`, lines 111-156. -/
def computeChain : Act Robot Unit := do
  let r ← read
  registerAll (chainRegs (baseOf r))

/-- Lines 257-267. -/
def jacRegs (B : Base) : List Reg :=
  (List.range B.n).map (fun i =>
    ⟨"J_" ++ toString (i + 1), B.J i, ["q"], ["par_DHtable", "par_world2L0"], "Jacobian of frame " ++ toString (i + 1)⟩)
  ++ [⟨"J_" ++ toString (B.n + 1), B.J B.n, ["q"], ["par_DHtable", "par_world2L0", "par_Ln2EE"], "Jacobian of frame " ++ toString (B.n + 1)⟩,
    ⟨"J_ee", B.Jee, ["q"], ["par_DHtable", "par_world2L0", "par_Ln2EE"], "Jacobian of the end-effector"⟩]

/-- `compute_jacobians`, lines 158-269. -/
def computeJacobians : Act Robot Unit := do
  unlessHas "T_0_0" computeChain
  let r ← read
  registerAll (jacRegs (baseOf r))

/-- Lines 284-295. -/
def kinAdvRegs (B : Base) : List Reg :=
  [⟨"J_ee_dot", B.JeeDot, ["q", "dq"], ["par_DHtable", "par_world2L0", "par_Ln2EE"], "Time derivative of jacobian matrix"⟩,
    ⟨"J_ee_ddot", B.JeeDdot, ["q", "dq", "ddq"], ["par_DHtable", "par_world2L0", "par_Ln2EE"], "Time second derivative of jacobian matrix"⟩,
    ⟨"J_ee_pinv", B.JeePinv, ["q"], ["par_DHtable", "par_world2L0", "par_Ln2EE"], "Pseudo-Inverse of jacobian matrix"⟩]

/-- `compute_kin_adv`, lines 271-298. -/
def computeKinAdv : Act Robot Unit := do
  unlessHas "T_0_0" computeChain
  unlessHas "J_ee" computeJacobians
  let r ← read
  registerAll (kinAdvRegs (baseOf r))

/-- `compute_kinematics` with `advanced = true`, lines 301-309. -/
def computeKinematics : Act Robot Unit := do
  computeChain
  computeJacobians
  computeKinAdv

/-! ## src/dynamics.cpp -/

/-- `DHJacCM`, lines 184-185, and `compute_MCG`, lines 254-262. -/
def mcgRegs (B : Base) : List Reg :=
  (List.range B.n).map (fun i =>
    ⟨"J_cm_" ++ toString (i + 1), B.Jcm i, ["q"], ["par_DHtable", "par_world2L0", "par_DYN"],
      "Jacobian of center of mass of link " ++ toString (i + 1)⟩)
  ++ [⟨"M", B.M, ["q"], ["par_DHtable", "par_world2L0", "par_DYN"], "Manipulator mass matrix"⟩,
    ⟨"C", B.C, ["q", "dq"], ["par_DHtable", "par_world2L0", "par_DYN"], "Manipulator Coriolis matrix"⟩,
    ⟨"C_std", B.Cstd, ["q", "dq"], ["par_DHtable", "par_world2L0", "par_DYN"], "Classic formulation of the manipulator Coriolis matrix"⟩,
    ⟨"G", B.G, ["q"], ["par_DHtable", "par_world2L0", "par_gravity", "par_DYN"], "Manipulator gravity terms"⟩]

/-- `compute_MCG`, lines 191-265. -/
def computeMCG : Act Robot Unit := do
  unlessHas "T_0_0" computeChain
  let r ← read
  registerAll (mcgRegs (baseOf r))

/-- Lines 394-399. -/
def dlRegs (B : Base) (ord : ℕ) : List Reg :=
  ⟨"dl", B.dlFun ord, ["dq"], ["par_Dl"], "Manipulator link friction"⟩ ::
    (List.range ord).map fun o =>
      ⟨"Dl" ++ toString (o + 1), diagPar B.dl B.n ord o, [], ["par_Dl"], "SEA manipulator link damping, order " ++ toString (o + 1)⟩

/-- `compute_Dl`, lines 372-403. -/
def computeDl : Act Robot Unit := do
  let r ← read
  if 0 < r.dlOrd then registerAll (dlRegs (baseOf r) r.dlOrd) else pure ()

/-- Lines 340-366. -/
def elaRegs (r : Robot) : List Reg :=
  let B := baseOf r
  (if 0 < r.kOrd then
    ⟨"k", B.kFun r.ne r.kOrd, ["q", "x"], ["par_K"], "SEA manipulator elastic coupling"⟩ ::
      (List.range r.kOrd).map fun o => ⟨"K" ++ toString (2 * o + 1), diagPar B.parK r.ne r.kOrd o, [], ["par_K"],
        "SEA manipulator elastic coupling, order " ++ toString (2 * o + 1)⟩
    else [])
  ++ (if 0 < r.dOrd then
    ⟨"d", B.dFun r.ne r.dOrd, ["dq", "dx"], ["par_D"], "SEA manipulator dampind coupling"⟩ ::
      (List.range r.dOrd).map fun o => ⟨"D" ++ toString (o + 1), diagPar B.parD r.ne r.dOrd o, [], ["par_D"],
        "SEA manipulator damping coupling, order " ++ toString (o + 1)⟩
    else [])
  ++ (if 0 < r.dmOrd then
    ⟨"dm", B.dmFun r.ne r.dmOrd, ["dx"], ["par_Dm"], "SEA manipulator motor damping"⟩ ::
      (List.range r.dmOrd).map fun o => ⟨"Dm" ++ toString (o + 1), diagPar B.parDm r.ne r.dmOrd o, [], ["par_Dm"],
        "SEA manipulator motor damping, order " ++ toString (o + 1)⟩
    else [])
  ++ [⟨"Mm", B.MmFun r.ne, [], ["par_Mm"], "SEA manipulator motor inertia"⟩]

/-- `compute_elastic`, lines 267-370; the vectors `K_vec(K_order)` … throw for a negative size (lines 307-309). -/
def computeElastic : Act Robot Unit := do
  let r ← read
  if r.elastic then do
    ofExc (if 0 ≤ r.kI ∧ 0 ≤ r.dI ∧ 0 ≤ r.dmI then some () else none)
    registerAll (elaRegs r)
  else pure ()

/-- Lines 419-440. -/
def dynDerRegs (B : Base) : List Reg :=
  [⟨"M_dot", B.Mdot, ["q", "dq"], ["par_DHtable", "par_world2L0", "par_DYN"], "Time derivative of the mass matrix"⟩,
    ⟨"M_ddot", B.Mddot, ["q", "dq", "ddq"], ["par_DHtable", "par_world2L0", "par_DYN"], "Second time derivative of the mass matrix"⟩,
    ⟨"C_dot", B.Cdot, ["q", "dq", "ddq"], ["par_DHtable", "par_world2L0", "par_DYN"], "Time derivative of the Coriolis matrix"⟩,
    ⟨"C_ddot", B.Cddot, ["q", "dq", "ddq", "d3q"], ["par_DHtable", "par_world2L0", "par_DYN"], "Second time derivative of the Coriolis matrix"⟩,
    ⟨"G_dot", B.Gdot, ["q", "dq"], ["par_DHtable", "par_world2L0", "par_gravity", "par_DYN"], "Time derivative of the gravity vector"⟩,
    ⟨"G_ddot", B.Gddot, ["q", "dq", "ddq"], ["par_DHtable", "par_world2L0", "par_gravity", "par_DYN"],
      "Second time derivative of the gravity vector"⟩]

/-- `compute_dyn_derivatives`, lines 405-443. -/
def computeDynDer : Act Robot Unit := do
  unlessHas "M" computeMCG
  let r ← read
  registerAll (dynDerRegs (baseOf r))

/-- `compute_dynamics` with `advanced = true`, lines 446-457. -/
def computeDynamics : Act Robot Unit := do
  computeMCG
  computeDl
  computeElastic
  computeDynDer

/-! ## src/regressors.cpp -/

/-- Lines 181-189. -/
def yrRegs (B : Base) : List Reg :=
  [⟨"Yr", B.Yr, ["q", "dq", "dqr", "ddqr"], ["par_DHtable", "par_world2L0", "par_gravity"], "Manipulator regressor matrix"⟩,
    ⟨"reg_M", B.regM, ["q", "ddqr"], ["par_DHtable", "par_world2L0"], "Regressor matrix of term M*ddqr"⟩,
    ⟨"reg_C", B.regC, ["q", "dq", "dqr"], ["par_DHtable", "par_world2L0"], "Regressor matrix of term C*dqr"⟩,
    ⟨"reg_G", B.regG, ["q"], ["par_DHtable", "par_world2L0", "par_gravity"], "Regressor matrix of term G"⟩]

/-- `compute_Yr`, lines 56-192. -/
def computeYr : Act Robot Unit := do
  unlessHas "T_0_0" computeChain
  unlessHas "J_1" computeJacobians
  let r ← read
  registerAll (yrRegs (baseOf r))

/-- The symbolic entries of a parameter vector, e.g. lines 210-216; `par_symb[i]` is not checked. -/
def symbolic (k : String) : Act Robot (List Expr) := do
  let r ← read
  ofIdx (pickRows (r.flags k) (r.mod k))

/-- `if (par.size1() != 0) …` -/
def registerWhen (l : List Expr) (gs : List Reg) : Act Robot Unit := if l.length ≠ 0 then registerAll gs else pure ()

/-- Lines 372-378. -/
def regJRegs (r : Robot) : List Reg :=
  [⟨"reg_Jdq", (baseOf r).regJdq (r.flags "par_DHtable") (r.flags "par_world2L0") (r.flags "par_Ln2EE"), ["q", "dq"],
      ["par_DHtable", "par_world2L0", "par_Ln2EE"], "Regressor matrix of the quantity J*dq"⟩,
    ⟨"reg_JTw", (baseOf r).regJTw (r.flags "par_DHtable") (r.flags "par_world2L0") (r.flags "par_Ln2EE"), ["q", "w"],
      ["par_DHtable", "par_world2L0", "par_Ln2EE"], "Regressor matrix of the quantity J^T*w"⟩]

/-- `compute_reg_J`, lines 308-383. -/
def computeRegJ : Act Robot Unit := do
  unlessHas "T_0_0" computeChain
  unlessHas "J_ee" computeJacobians
  let a ← symbolic "par_DHtable"
  let b ← symbolic "par_world2L0"
  let c ← symbolic "par_Ln2EE"
  let r ← read
  registerWhen (a ++ b ++ c) (regJRegs r)

/-- `compute_reg_Dl`, lines 194-225.  Line 203 tests for a function "Dl", which never exists, so `compute_Dl` runs again. -/
def computeRegDl : Act Robot Unit := do
  unlessHas "Dl" computeDl
  let a ← symbolic "par_Dl"
  let r ← read
  registerWhen a [⟨"reg_dl", (baseOf r).regDl r.dlOrd (r.flags "par_Dl"), ["dq"], [], "Regressor matrix of the link friction"⟩]

/-- `robot.model[k]` used as a reference: a missing key is inserted with an empty value. -/
def touchModel (k : String) : Act Robot Unit := modify fun r => { r with model := r.model.ins k (SX.zeros 0 0) }

/-- `compute_reg_elastic`, lines 227-306. -/
def computeRegElastic : Act Robot Unit := do
  unlessHas "k" computeElastic
  touchModel "k"
  touchModel "d"
  touchModel "dm"
  touchModel "Mm"
  let a ← symbolic "par_K"
  let b ← symbolic "par_D"
  let c ← symbolic "par_Dm"
  let e ← symbolic "par_Mm"
  let r ← read
  registerWhen a [⟨"reg_k", (baseOf r).regK r.ne r.kOrd (r.flags "par_K"), ["q", "x"], [], "Regressor matrix of the coupling stiffness"⟩]
  registerWhen b [⟨"reg_d", (baseOf r).regD r.ne r.dOrd (r.flags "par_D"), ["dq", "dx"], [], "Regressor matrix of the coupling damping"⟩]
  registerWhen c [⟨"reg_dm", (baseOf r).regDm r.ne r.dmOrd (r.flags "par_Dm"), ["dx"], [], "Regressor matrix of the motor friction"⟩]
  registerWhen e [⟨"reg_Mm", (baseOf r).regMm r.ne (r.flags "par_Mm"), ["ddx"], [], "Regressor matrix of the motor friction"⟩]

/-- `compute_regressors`, lines 385-400. -/
def computeRegressors : Act Robot Unit := do
  let r ← read
  computeYr
  computeRegJ
  if 0 < r.dlOrd then computeRegDl else pure ()
  if r.elastic then computeRegElastic else pure ()

/-- `compute_userDefined`, src/userDefined.cpp:8-18: as shipped it registers nothing. -/
def computeUserDefined : Act Robot Unit := pure ()

/-! ## src/robot.cpp -/

/-- The part of `robot_from_file` after the constructor, lines 1131-1157. -/
def fillRobot (name : String) (file : Option Yaml) (compute : Bool) : Act Robot Unit := do
  modify fun r => { r with name := name }
  let _ ← loadConfPar file true
  if compute then do
    initSymb
    computeKinematics
    computeDynamics
    computeRegressors
    computeUserDefined
    updateSymb
  else pure ()

/-- `robot_from_file`, lines 1126-1159: an exception, also of YAML, leaves the function. -/
def robotFromFile (name : String) (file : Option Yaml) (compute : Bool) : Made :=
  match constructFile file with
  | .ok r =>
    match fillRobot name file compute r with
    | .ok _ r' => .ok r'
    | .yaml _ => .exc
    | .exc _ => .exc
    | .ub => .ub
  | .exc => .exc
  | .ub => .ub

end Robot

end

end Thunder
