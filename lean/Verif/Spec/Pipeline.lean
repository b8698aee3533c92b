import Verif.Spec.Config
import Verif.Spec.Names
import Verif.Spec.Robot

/-!
# What `robot_from_file` should deliver
-/

namespace Thunder.Spec

/-- `s` followed by the numbers from `a` to `b`. -/
def numbered (s : String) (a b : ℕ) : List String := (List.range' a (b + 1 - a)).map fun i => s ++ toString i

/-- One of the flags is set. -/
def anySet (k : ℕ) (f : ℕ → ℤ) : Prop := ∃ i < k, f i ≠ 0

open scoped Classical in
/-- Names that are present under a condition. -/
noncomputable def onlyIf (p : Prop) (l : List String) : List String := if p then l else []

/-- The kinematic functions. -/
def kinNames (n : ℕ) : List String :=
  numbered "T_" 0 n ++ numbered "T_0_" 0 (n + 1) ++ ["T_0_ee"] ++ numbered "J_" 1 (n + 1) ++ ["J_ee", "J_ee_dot", "J_ee_ddot", "J_ee_pinv"]
/-- The dynamic functions of every robot. -/
def dynNames (n : ℕ) : List String :=
  numbered "J_cm_" 1 n ++ ["M", "C", "C_std", "G", "M_dot", "M_ddot", "C_dot", "C_ddot", "G_dot", "G_ddot", "Yr", "reg_M", "reg_C", "reg_G"]
/-- The functions of the elastic joints. -/
noncomputable def elaNames (c : Conf) : List String :=
  onlyIf (0 < c.kO) ("k" :: (List.range c.kO).map fun i => "K" ++ toString (2 * i + 1)) ++ onlyIf (0 < c.dO) ("d" :: numbered "D" 1 c.dO) ++
    onlyIf (0 < c.dmO) ("dm" :: numbered "Dm" 1 c.dmO) ++ ["Mm"] ++ onlyIf (anySet (c.ne * c.kO) c.fK) ["reg_k"] ++
    onlyIf (anySet (c.ne * c.dO) c.fD) ["reg_d"] ++ onlyIf (anySet (c.ne * c.dmO) c.fDm) ["reg_dm"] ++ onlyIf (anySet c.ne c.fMm) ["reg_Mm"]

/-- The functions of the library generated for a configuration. -/
noncomputable def library (c : Conf) : List String :=
  kinNames c.n ++ dynNames c.n ++ onlyIf (anySet (4 * c.n) c.fdh ∨ anySet 6 c.fw2l ∨ anySet 6 c.fee) ["reg_Jdq", "reg_JTw"] ++
    onlyIf (0 < c.dlO) ("dl" :: numbered "Dl" 1 c.dlO) ++ onlyIf (anySet (c.n * c.dlO) c.fdl) ["reg_dl"] ++ onlyIf (c.elastic = true) (elaNames c)

/-- The joint types that have a meaning. -/
def jointTypes : List String := ["R", "P", "R_SEA", "P_SEA"]

/-- There is at least one joint and every joint has a known type. -/
def JointsOk (c : Conf) : Prop := 0 < c.n ∧ ∀ t ∈ c.types, t ∈ jointTypes

/-- The function `f` of the robot is registered: a CasADi function exists, its inputs are the current symbols of the declared arguments, no symbol
is repeated, and every symbol in the expression is one of them. -/
def Registered (r : Robot) (f : String) : Prop :=
  ∃ fargs vs A, r.funArgs.find f = some fargs ∧ r.funs.find f = some ⟨vs, A⟩ ∧ r.model.find f = some A ∧ r.funDescr.has f = true ∧ vs.flatten.Nodup ∧
    (∀ i < A.rows, ∀ j < A.cols, ∀ v ∈ (A.e i j).fv, v ∈ vs.flatten) ∧
    List.Forall₂ (fun a l => r.model.find a = some (SX.ofList (l.map Expr.var))) fargs vs

/-- A matrix all of whose entries are determined. -/
def Full (m : Robot.Mat) : Prop := m.data.length = m.rows * m.cols ∧ ∀ x ∈ m.data, ∃ v : ℝ, x = some v

/-- Two configurations that differ at most in the choice of symbolic parameters. -/
structure SameValues (c c' : Conf) : Prop where
  types : c'.types = c.types
  elastic : c'.elastic = c.elastic
  kO : c'.kO = c.kO
  dO : c'.dO = c.dO
  dmO : c'.dmO = c.dmO
  dlO : c'.dlO = c.dlO
  dh : c'.dh = c.dh
  w2l : c'.w2l = c.w2l
  ee : c'.ee = c.ee
  g : c'.g = c.g
  dyn : c'.dyn = c.dyn
  dl : c'.dl = c.dl
  K : c'.K = c.K
  D : c'.D = c.D
  Dm : c'.Dm = c.Dm
  Mm : c'.Mm = c.Mm

/-- `a` is an angle that one of the configurations declares symbolic and the other numeric: the twist `α` of a joint, the angle `θ` of a
prismatic joint, or a yaw, pitch or roll angle of one of the two frames. -/
def MixedAngle (c c' : Conf) (a : ℝ) : Prop :=
  (∃ i < c.n, ¬ (c.fdh (4 * i + 1) = 0 ↔ c'.fdh (4 * i + 1) = 0) ∧ a = c.dh (4 * i + 1)) ∨
  (∃ i < c.n, c.types.getD i "" ∈ ["P", "P_SEA"] ∧ ¬ (c.fdh (4 * i + 3) = 0 ↔ c'.fdh (4 * i + 3) = 0) ∧ a = c.dh (4 * i + 3)) ∨
  ∃ i, 3 ≤ i ∧ i < 6 ∧ ((¬ (c.fw2l i = 0 ↔ c'.fw2l i = 0) ∧ a = c.w2l i) ∨ (¬ (c.fee i = 0 ↔ c'.fee i = 0) ∧ a = c.ee i))

/-- The regressors of parameters: they have one column for each symbolic parameter. -/
def parRegressors : List String := ["reg_Jdq", "reg_JTw", "reg_dl", "reg_k", "reg_d", "reg_dm", "reg_Mm"]

/-- The variables of motion. -/
def motionNames : List String := ["q", "dq", "ddq", "d3q", "d4q", "dqr", "ddqr", "w", "x", "dx", "ddx", "ddxr"]

/-- Calls that evaluate a function other than a regressor of parameters, or read or write a variable of motion. -/
def Motion : RCall → Prop
  | .get f => f ∉ parRegressors
  | .setVar _ _ => True
  | .setArg f _ => f ∈ motionNames
  | .getArg f => f ∈ motionNames
  | _ => False

end Thunder.Spec
