import Verif.Spec.Pipeline
import Verif.Spec.Generated
import Verif.Spec.Jacobian
import Verif.Spec.Dynamics
import Verif.Spec.Friction
import Verif.Model.Pipeline
import Verif.Model.Generated

/-!
# The mechanism described by a configuration file

What the numbers returned by a robot built from a file should be, in terms of the numbers in the file and the current values of the variables of motion
and of the symbolic parameters.
-/

namespace Thunder.Spec

open Matrix Robot

noncomputable section

/-! ## The mechanism -/

/-- The kind of joint `i`. -/
def kindOf (c : Conf) (i : ℕ) : Joint := if c.types.getD i "" ∈ ["P", "P_SEA"] then .prismatic else .revolute

/-- Cosine and sine of an angle of the file: exact for a symbolic angle; for a numeric one the results of the library functions, with small values
replaced by zero. -/
def angleOf [Fl] (flag : ℤ) (a : ℝ) : ℝ × ℝ := if flag = 0 then (snap (Fl.cosF a), snap (Fl.sinF a)) else cs a

/-- The transformation of joint `i` at the coordinate `q`. -/
def linkOf [Fl] (c : Conf) (i : ℕ) (q : ℝ) : Matrix (Fin 4) (Fin 4) ℝ :=
  match kindOf c i with
  | .prismatic => dh (c.dh (4 * i)) (angleOf (c.fdh (4 * i + 1)) (c.dh (4 * i + 1))) (c.dh (4 * i + 2) + q) (angleOf (c.fdh (4 * i + 3)) (c.dh (4 * i + 3)))
  | .revolute => dh (c.dh (4 * i)) (angleOf (c.fdh (4 * i + 1)) (c.dh (4 * i + 1))) (c.dh (4 * i + 2)) (cs (c.dh (4 * i + 3) + q))

/-- A fixed frame given by three coordinates and yaw, pitch and roll. -/
def mountOf [Fl] (flag : ℕ → ℤ) (v : ℕ → ℝ) : Matrix (Fin 4) (Fin 4) ℝ :=
  frame (fun k => v k) (angleOf (flag 3) (v 3)) (angleOf (flag 4) (v 4)) (angleOf (flag 5) (v 5))

/-- The frame of link `i` (the base for `i = 0`) at the joint coordinates `q`. -/
def linkFrame [Fl] (c : Conf) (q : Fin c.n → ℝ) : ℕ → Matrix (Fin 4) (Fin 4) ℝ
  | 0 => mountOf c.fw2l c.w2l
  | i + 1 => linkFrame c q i * if h : i < c.n then linkOf c i (q ⟨i, h⟩) else 1

/-- The frame of the tool. -/
def toolFrame [Fl] (c : Conf) (q : Fin c.n → ℝ) : Matrix (Fin 4) (Fin 4) ℝ := linkFrame c q c.n * mountOf c.fee c.ee

/-- `a` is a numeric angle of the file that enters a transformation. -/
def NumericAngle (c : Conf) (a : ℝ) : Prop :=
  (∃ i < c.n, c.fdh (4 * i + 1) = 0 ∧ a = c.dh (4 * i + 1)) ∨
  (∃ i < c.n, kindOf c i = .prismatic ∧ c.fdh (4 * i + 3) = 0 ∧ a = c.dh (4 * i + 3)) ∨
  ∃ i, 3 ≤ i ∧ i < 6 ∧ (c.fw2l i = 0 ∧ a = c.w2l i ∨ c.fee i = 0 ∧ a = c.ee i)

/-- The cosine and the sine used for every numeric angle lie on the unit circle. -/
def UnitNumeric [Fl] (c : Conf) : Prop := ∀ a, NumericAngle c a → snap (Fl.cosF a) ^ 2 + snap (Fl.sinF a) ^ 2 = 1
/-- They are the exact cosine and sine. -/
def ExactNumeric [Fl] (c : Conf) : Prop := ∀ a, NumericAngle c a → snap (Fl.cosF a) = Real.cos a ∧ snap (Fl.sinF a) = Real.sin a

/-- Kinetic and potential energy of the links, and the Lagrangian. -/
def kineticOf [Fl] (c : Conf) (q v : Fin c.n → ℝ) : ℝ := kineticEnergy c.dyn c.n (fun i q => linkFrame c q (i + 1)) q v
def potentialOf [Fl] (c : Conf) (q : Fin c.n → ℝ) : ℝ := potential c.dyn (fun k => c.g k) c.n fun i => linkFrame c q (i + 1)
def lagrangianOf [Fl] (c : Conf) (q v : Fin c.n → ℝ) : ℝ := kineticOf c q v - potentialOf c q

/-! ### Matrices of the mechanism -/

/-- The geometric Jacobian of the point `p` of a body with frame `T`: derivatives of the position of the point, and angular velocities
(`∂R/∂q_j Rᵀ` as a vector). -/
def jacobianAt {n : ℕ} (T : (Fin n → ℝ) → Matrix (Fin 4) (Fin 4) ℝ) (p : Fin 3 → ℝ) (q : Fin n → ℝ) : Matrix (Fin 6) (Fin n) ℝ :=
  Matrix.of fun a j => if h : (a : ℕ) < 3 then deriv (fun t => point (T (Function.update q j t)) p ⟨a, h⟩) (q j)
    else vee (Matrix.of (fun x y => deriv (fun t => rot (T (Function.update q j t)) x y) (q j)) * (rot (T q))ᵀ) ⟨a - 3, by omega⟩

/-- The geometric Jacobian of the origin of the frame. -/
def jacobianOf {n : ℕ} (T : (Fin n → ℝ) → Matrix (Fin 4) (Fin 4) ℝ) (q : Fin n → ℝ) : Matrix (Fin 6) (Fin n) ℝ := jacobianAt T 0 q

/-- The symmetric matrix of a quadratic form `f v = ½ vᵀ A v`. -/
def quadratic {n : ℕ} (f : (Fin n → ℝ) → ℝ) : Matrix (Fin n) (Fin n) ℝ :=
  Matrix.of fun i j => f (Pi.single i 1 + Pi.single j 1) - f (Pi.single i 1) - f (Pi.single j 1)

/-- The mass matrix: the matrix of the kinetic energy. -/
def massOf [Fl] (c : Conf) (q : Fin c.n → ℝ) : Matrix (Fin c.n) (Fin c.n) ℝ := quadratic (kineticOf c q)

/-- The matrix of the Coriolis and centrifugal terms made of the Christoffel symbols of `A`. -/
def christoffel {n : ℕ} (A : (Fin n → ℝ) → Matrix (Fin n) (Fin n) ℝ) (q v : Fin n → ℝ) : Matrix (Fin n) (Fin n) ℝ :=
  Matrix.of fun h j => 1 / 2 * ∑ k : Fin n, (deriv (fun x => A (Function.update q k x) h j) (q k) +
    deriv (fun x => A (Function.update q j x) h k) (q j) - deriv (fun x => A (Function.update q h x) j k) (q h)) * v k

def coriolisOf [Fl] (c : Conf) (q v : Fin c.n → ℝ) : Matrix (Fin c.n) (Fin c.n) ℝ := christoffel (massOf c) q v

/-- The gravity terms: the gradient of the potential energy. -/
def gravityOf [Fl] (c : Conf) (q : Fin c.n → ℝ) : Fin c.n → ℝ := fun j => deriv (fun x => potentialOf c (Function.update q j x)) (q j)

/-! ### Friction and elastic joints -/

theorem ne_le_n (c : Conf) : c.ne ≤ c.n := List.countP_le_length

/-- Friction of the links with coefficients `p`, one polynomial per joint. -/
def frictionOf (c : Conf) (p : ℕ → ℝ) (v : Fin c.n → ℝ) : Fin c.n → ℝ := fun i => friction (fun k => p (i * c.dlO + k)) c.dlO (v i)

/-- Torques of the springs between the motors `x` and the first links. -/
def springOf (c : Conf) (p : ℕ → ℝ) (q : Fin c.n → ℝ) (x : Fin c.ne → ℝ) : Fin c.ne → ℝ :=
  fun e => spring (fun k => p (e * c.kO + k)) c.kO (x e - q (Fin.castLE (ne_le_n c) e))

/-- Torques of the dampers between the motors and the first links. -/
def damperOf (c : Conf) (p : ℕ → ℝ) (v : Fin c.n → ℝ) (w : Fin c.ne → ℝ) : Fin c.ne → ℝ :=
  fun e => friction (fun k => p (e * c.dO + k)) c.dO (w e - v (Fin.castLE (ne_le_n c) e))

/-- Friction of the motors. -/
def motorFrictionOf (c : Conf) (p : ℕ → ℝ) (w : Fin c.ne → ℝ) : Fin c.ne → ℝ := fun e => friction (fun k => p (e * c.dmO + k)) c.dmO (w e)

/-- The diagonal matrix of the coefficients of one order. -/
def gains (m order k : ℕ) (p : ℕ → ℝ) : Matrix (Fin m) (Fin m) ℝ := Matrix.diagonal fun i => p (i * order + k)

/-! ### Symbolic parameters -/

/-- The indices of the symbolic entries. -/
def symbolIdx (k : ℕ) (f : ℕ → ℤ) : List ℕ := (List.range k).filter fun i => f i ≠ 0

/-- `p` with zeros instead of the symbolic entries. -/
def numericPart (f : ℕ → ℤ) (p : ℕ → ℝ) : ℕ → ℝ := fun i => if f i = 0 then p i else 0

/-- The kinematic parameters. -/
inductive KinPar
  | dh (i : ℕ)
  | w2l (i : ℕ)
  | ee (i : ℕ)

/-- The symbolic kinematic parameters. -/
def kinPars (c : Conf) : List KinPar :=
  (symbolIdx (c.n * 4) c.fdh).map .dh ++ (symbolIdx 6 c.fw2l).map .w2l ++ (symbolIdx 6 c.fee).map .ee

/-- The value of a kinematic parameter. -/
def getPar (c : Conf) : KinPar → ℝ
  | .dh i => c.dh i
  | .w2l i => c.w2l i
  | .ee i => c.ee i

/-- The file with another value of a kinematic parameter. -/
def setPar (c : Conf) (p : KinPar) (t : ℝ) : Conf :=
  { c with
    dh := match p with | .dh i => Function.update c.dh i t | _ => c.dh
    w2l := match p with | .w2l i => Function.update c.w2l i t | _ => c.w2l
    ee := match p with | .ee i => Function.update c.ee i t | _ => c.ee }

/-- The file with other inertial parameters. -/
def withDyn (c : Conf) (p : ℕ → ℝ) : Conf := { c with dyn := p }

/-! ## The robot in use -/

/-- Values of the variables of motion. -/
structure State (c : Conf) where
  q : Fin c.n → ℝ
  dq : Fin c.n → ℝ
  ddq : Fin c.n → ℝ
  d3q : Fin c.n → ℝ
  dqr : Fin c.n → ℝ
  ddqr : Fin c.n → ℝ
  w : Fin 6 → ℝ
  x : Fin c.ne → ℝ
  dx : Fin c.ne → ℝ
  ddx : Fin c.ne → ℝ

/-- A vector of numbers as it is stored. -/
def stored {k : ℕ} (v : Fin k → ℝ) : List Num := List.ofFn fun i => some (v i)
/-- The symbolic entries of a vector of parameters as they are stored. -/
def symbolics (k : ℕ) (f : ℕ → ℤ) (v : ℕ → ℝ) : List Num := ((List.range k).filter fun i => f i ≠ 0).map fun i => some (v i)

/-- The arguments of the robot are the variables `s` and the symbolic parameters of `c`. -/
structure Holds (c : Conf) (s : State c) (r : Robot) : Prop where
  q : r.arg "q" = stored s.q
  dq : r.arg "dq" = stored s.dq
  ddq : r.arg "ddq" = stored s.ddq
  d3q : r.arg "d3q" = stored s.d3q
  dqr : r.arg "dqr" = stored s.dqr
  ddqr : r.arg "ddqr" = stored s.ddqr
  w : r.arg "w" = stored s.w
  DH : r.arg "par_DHtable" = symbolics (4 * c.n) c.fdh c.dh
  W2L : r.arg "par_world2L0" = symbolics 6 c.fw2l c.w2l
  EE : r.arg "par_Ln2EE" = symbolics 6 c.fee c.ee
  grav : r.arg "par_gravity" = symbolics 3 c.fg c.g
  DYN : r.arg "par_DYN" = symbolics (10 * c.n) c.fdyn c.dyn
  Dl : 0 < c.dlO → r.arg "par_Dl" = symbolics (c.n * c.dlO) c.fdl c.dl
  x : c.elastic = true → r.arg "x" = stored s.x
  dx : c.elastic = true → r.arg "dx" = stored s.dx
  ddx : c.elastic = true → r.arg "ddx" = stored s.ddx
  K : c.elastic = true → r.arg "par_K" = symbolics (c.ne * c.kO) c.fK c.K
  D : c.elastic = true → r.arg "par_D" = symbolics (c.ne * c.dO) c.fD c.D
  Dm : c.elastic = true → r.arg "par_Dm" = symbolics (c.ne * c.dmO) c.fDm c.Dm
  Mm : c.elastic = true → r.arg "par_Mm" = symbolics c.ne c.fMm c.Mm

/-- `c'` is `c` with other values of the symbolic parameters. -/
structure Retuned (c c' : Conf) : Prop where
  types : c'.types = c.types
  elastic : c'.elastic = c.elastic
  kO : c'.kO = c.kO
  dO : c'.dO = c.dO
  dmO : c'.dmO = c.dmO
  dlO : c'.dlO = c.dlO
  fdh : c'.fdh = c.fdh
  fw2l : c'.fw2l = c.fw2l
  fee : c'.fee = c.fee
  fg : c'.fg = c.fg
  fdyn : c'.fdyn = c.fdyn
  fdl : c'.fdl = c.fdl
  fK : c'.fK = c.fK
  fD : c'.fD = c.fD
  fDm : c'.fDm = c.fDm
  fMm : c'.fMm = c.fMm
  dh : ∀ i, c.fdh i = 0 → c'.dh i = c.dh i
  w2l : ∀ i, c.fw2l i = 0 → c'.w2l i = c.w2l i
  ee : ∀ i, c.fee i = 0 → c'.ee i = c.ee i
  g : ∀ i, c.fg i = 0 → c'.g i = c.g i
  dyn : ∀ i, c.fdyn i = 0 → c'.dyn i = c.dyn i
  dl : ∀ i, c.fdl i = 0 → c'.dl i = c.dl i
  K : ∀ i, c.fK i = 0 → c'.K i = c.K i
  D : ∀ i, c.fD i = 0 → c'.D i = c.D i
  Dm : ∀ i, c.fDm i = 0 → c'.Dm i = c.Dm i
  Mm : ∀ i, c.fMm i = 0 → c'.Mm i = c.Mm i

/-- Calls that neither define a function nor change the symbolic expressions. -/
def Use : RCall → Prop
  | .addFunction .. | .initSymb | .updateSymb => False
  | _ => True

/-- `r` was built from the file `y` by `robot_from_file` and then used in any way. -/
def InUse [Fl] (y : Yaml) (r : Robot) : Prop :=
  ∃ name r₀ hist, robotFromFile name (some y) true = .ok r₀ ∧ (∀ x ∈ hist, Use x) ∧ after hist r₀ = some r

/-- `r` was built from the file `y` and used in any way, until its variables of motion are `s` and its symbolic parameters those of `c`, the file with
the current values of the symbolic parameters. -/
structure Running [Fl] (y : Yaml) (c : Conf) (s : State c) (r : Robot) : Prop where
  file : ∃ c₀, Describes y c₀ ∧ JointsOk c₀ ∧ Retuned c₀ c
  use : InUse y r
  args : Holds c s r

/-- The answer of `get` on the robot `r` for the name `f`. -/
def answers (r : Robot) (f : String) (mat : Mat) : Prop := ∃ r', Robot.get f r = .ok mat r'

/-! ## The generated class in use -/

/-- The members of an object of the generated class are the variables `s`. -/
structure Moves (c : Conf) (s : State c) (o : Wrap.Obj) : Prop where
  q : o.vec .q = stored s.q
  dq : o.vec .dq = stored s.dq
  ddq : o.vec .ddq = stored s.ddq
  d3q : o.vec .d3q = stored s.d3q
  dqr : o.vec .dqr = stored s.dqr
  ddqr : o.vec .ddqr = stored s.ddqr
  w : o.vec .w = stored s.w
  x : c.elastic = true → o.vec .x = stored s.x
  dx : c.elastic = true → o.vec .dx = stored s.dx
  ddx : c.elastic = true → o.vec .ddx = stored s.ddx

/-- The members for parameters begin with the symbolic parameters of `c` (the generated code reads no more). -/
structure Stores (c : Conf) (s : State c) (o : Wrap.Obj) : Prop extends Moves c s o where
  DH : symbolics (4 * c.n) c.fdh c.dh <+: o.vec .DH
  W2L : symbolics 6 c.fw2l c.w2l <+: o.vec .W2L
  EE : symbolics 6 c.fee c.ee <+: o.vec .EE
  grav : symbolics 3 c.fg c.g <+: o.vec .G
  DYN : symbolics (10 * c.n) c.fdyn c.dyn <+: o.vec .DYN
  Dl : 0 < c.dlO → symbolics (c.n * c.dlO) c.fdl c.dl <+: o.vec .Dl
  K : c.elastic = true → symbolics (c.ne * c.kO) c.fK c.K <+: o.vec .K
  D : c.elastic = true → symbolics (c.ne * c.dO) c.fD c.D <+: o.vec .D
  Dm : c.elastic = true → symbolics (c.ne * c.dmO) c.fDm c.Dm <+: o.vec .Dm
  Mm : c.elastic = true → symbolics c.ne c.fMm c.Mm <+: o.vec .Mm

/-- `o` is an object of the class generated from the file `y` (by way of the robot `g`), in any state in which its variables of motion are `s` and its
symbolic parameters those of `c`. -/
structure Generated [Fl] (y : Yaml) (c : Conf) (s : State c) (g : Robot) (o : Wrap.Obj) : Prop where
  file : ∃ c₀, Describes y c₀ ∧ JointsOk c₀ ∧ Retuned c₀ c
  gen : ∃ name, robotFromFile name (some y) true = .ok g
  members : Stores c s o

/-- The answer of the getter `get_<f>` on the object `o` of the class generated from `g`. -/
def classAnswers (g : Robot) (o : Wrap.Obj) (f : String) (mat : Mat) : Prop := Wrap.getter g f o = .value mat

/-- The values a variable has after these steps from a new object: those set last, otherwise zeros. -/
def lastSet (c : Conf) (f : Wrap.VarField) (steps : List Step) : List Num :=
  steps.foldl (fun v st => match st with | .set f' v' => if f' = f then v' else v | .load _ => v) (List.replicate (components c f) (some 0))

/-! ## What is answered -/

/-- Something built from the file `y` that can be asked for matrices by name: a robot, or an object of the generated class. -/
inductive Source [Fl] (y : Yaml) (c : Conf) (s : State c) : (String → Mat → Prop) → Prop
  | robot {r : Robot} (h : Running y c s r) : Source y c s (answers r)
  | generated {g : Robot} {o : Wrap.Obj} (h : Generated y c s g o) : Source y c s (classAnswers g o)

/-- The answer is the matrix `A`. -/
def Returns (R : String → Mat → Prop) (f : String) {m n : ℕ} (A : Matrix (Fin m) (Fin n) ℝ) : Prop :=
  ∃ mat, R f mat ∧ mat.rows = m ∧ mat.cols = n ∧ mat.data.length = m * n ∧
    ∀ (i : Fin m) (j : Fin n), mat.data[(i : ℕ) + m * j]? = some (some (A i j))

/-- The answer is the column `v`. -/
def ReturnsVec (R : String → Mat → Prop) (f : String) {m : ℕ} (v : Fin m → ℝ) : Prop := Returns R f (Matrix.of fun i (_ : Fin 1) => v i)

end

end Thunder.Spec
