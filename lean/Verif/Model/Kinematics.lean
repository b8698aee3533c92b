import Verif.Sym.SX

/-!
# Symbolic kinematics (`src/thunder/src/kinematics.cpp`)

The matrices built by `kinematics.cpp`, as functions of the symbolic inputs.  Registration of these matrices in the robot
(`add_function`) is in `Verif.Model.Pipeline`.  Paths below are relative to /repo/src/thunder.
-/

open scoped Classical

namespace Thunder

noncomputable section

/-- Results of the C library functions `cos` and `sin` on numeric (constant) arguments.  CasADi folds `cos`/`sin` of a constant
with these, so for numeric angles the symbolic matrices contain their (rounded) results.  The model is parametric in them. -/
class Fl where
  cosF : ℝ → ℝ
  sinF : ℝ → ℝ

variable [Fl]

/-- `cos` of an expression with constant folding. -/
def ccos : Expr → Expr
  | .const c => .const (Fl.cosF c)
  | e => .cos e
/-- `sin` of an expression with constant folding. -/
def csin : Expr → Expr
  | .const c => .const (Fl.sinF c)
  | e => .sin e
/-- Unary minus with constant folding. -/
def cneg : Expr → Expr
  | .const c => .const (-c)
  | e => .neg e

/-- `ZIS` ("zero if small"), src/kinematics.cpp:10-16, with `EPSILON = 1e-15` (src/kinematics.cpp:7; the decimal value, not the
nearest double, is used). -/
def zis : Expr → Expr
  | .const c => if |c| < 1e-15 then .const 0 else .const c
  | e => e

/-- A 3×3 matrix from its entries. -/
def mat33 (a00 a01 a02 a10 a11 a12 a20 a21 a22 : Expr) : SX :=
  ⟨3, 3, fun i j => match i, j with
    | 0, 0 => a00 | 0, 1 => a01 | 0, 2 => a02
    | 1, 0 => a10 | 1, 1 => a11 | 1, 2 => a12
    | 2, 0 => a20 | 2, 1 => a21 | 2, 2 => a22
    | _, _ => .const 0, True⟩

/-- A 3×1 column from its entries. -/
def col3 (a b c : Expr) : SX :=
  ⟨3, 1, fun i j => match i, j with
    | 0, 0 => a | 1, 0 => b | 2, 0 => c
    | _, _ => .const 0, True⟩

/-- `R_x`, src/kinematics.cpp:19-28. -/
def rotX (t : Expr) : SX :=
  mat33 (.const 1) (.const 0) (.const 0)
        (.const 0) (zis (ccos t)) (zis (cneg (csin t)))
        (.const 0) (zis (csin t)) (zis (ccos t))

/-- `R_y`, src/kinematics.cpp:29-38. -/
def rotY (t : Expr) : SX :=
  mat33 (zis (ccos t)) (.const 0) (zis (csin t))
        (.const 0) (.const 1) (.const 0)
        (zis (cneg (csin t))) (.const 0) (zis (ccos t))

/-- `R_z`, src/kinematics.cpp:41-51. -/
def rotZ (t : Expr) : SX :=
  mat33 (zis (ccos t)) (zis (cneg (csin t))) (.const 0)
        (zis (csin t)) (zis (ccos t)) (.const 0)
        (.const 0) (.const 0) (.const 1)

/-- `hat` on symbolic vectors, src/utils.cpp:435-447. -/
def hatX (v : SX) : SX :=
  { mat33 (.const 0) (Expr.sneg (v.e 2 0)) (v.e 1 0)
          (v.e 2 0) (.const 0) (Expr.sneg (v.e 0 0))
          (Expr.sneg (v.e 1 0)) (v.e 0 0) (.const 0) with ok := v.ok ∧ 3 ≤ v.rows }

/-- `(jointType == "P") || (jointType == "P_SEA")`, e.g. src/kinematics.cpp:67. -/
def isP (ty : String) : Prop := ty = "P" ∨ ty = "P_SEA"
/-- `(jointType == "R") || (jointType == "R_SEA")`, e.g. src/kinematics.cpp:71. -/
def isR (ty : String) : Prop := ty = "R" ∨ ty = "R_SEA"

/-- `Ti(idx,idx) = R; Ti(idx,3) = p; Ti(3,3) = 1` on an initially zero 4×4 matrix, src/kinematics.cpp:84-86 and 104-106. -/
def homog (R p : SX) : SX :=
  ⟨4, 4, fun i j =>
    if i < 3 ∧ j < 3 then R.e i j
    else if i < 3 ∧ j = 3 then p.e i 0
    else if i = 3 ∧ j = 3 then .const 1
    else .const 0, R.ok ∧ p.ok⟩

/-- `DHTemplate`, src/kinematics.cpp:53-89; row = `[a, alpha, d, theta]`.  The `throw` for an unknown joint type becomes
`ok = False`. -/
def dhTemplate (row : SX) (qi : Expr) (ty : String) : SX :=
  let a := row.e 0 0
  let alpha := row.e 1 0
  let d := if isP ty then Expr.sadd (row.e 2 0) qi else row.e 2 0
  let theta := if isP ty then row.e 3 0 else Expr.sadd (row.e 3 0) qi
  let Rx := rotX alpha
  let Rz := rotZ theta
  let T := homog (SX.mtimes Rx Rz)
    (SX.add (SX.mtimes Rx (col3 (.const 0) (.const 0) d)) (col3 a (.const 0) (.const 0)))
  { T with ok := T.ok ∧ row.ok ∧ 4 ≤ row.rows ∧ (isP ty ∨ isR ty) }

/-- `get_transform`, src/kinematics.cpp:91-109: translation `frame[0..2]`, rotation `Rz(frame[3]) Ry(frame[4]) Rx(frame[5])`. -/
def getTransform (frame : SX) : SX :=
  let T := homog (SX.mtimes (SX.mtimes (rotZ (frame.e 3 0)) (rotY (frame.e 4 0))) (rotX (frame.e 5 0)))
    (SX.block frame 0 3 0 1)
  { T with ok := T.ok ∧ 6 ≤ frame.rows }

/-- The symbolic quantities read from `robot.model[...]` by the `compute_*` functions, and the robot description they use. -/
structure Base where
  /-- `numJoints` -/
  n : ℕ
  /-- `jointsType` -/
  types : List String
  q : SX
  dq : SX
  ddq : SX
  d3q : SX
  dqr : SX
  ddqr : SX
  w : SX
  x : SX
  dx : SX
  ddx : SX
  /-- `par_DHtable` -/
  dh : SX
  /-- `par_world2L0` -/
  w2l : SX
  /-- `par_Ln2EE` -/
  ee : SX
  /-- `par_gravity` -/
  g : SX
  /-- `par_DYN` -/
  dyn : SX
  /-- `par_Dl` -/
  dl : SX
  parK : SX
  parD : SX
  parDm : SX
  parMm : SX

namespace Base

variable (B : Base)

/-- `jointsType[i]` (the vector has `numJoints` entries, checked in src/robot.cpp:248). -/
def ty (i : ℕ) : String := B.types.getD i ""

/-- `Ti[i]` of `compute_chain`, src/kinematics.cpp:111-156 (lines 127 and 138). -/
def Ti : ℕ → SX
  | 0 => getTransform B.w2l
  | i + 1 =>
    let T := dhTemplate (SX.block B.dh (i * 4) 4 0 1) (B.q.e i 0) (B.ty i)
    { T with ok := T.ok ∧ B.q.ok ∧ i < B.q.rows }

/-- `T0i[i]` of `compute_chain`, src/kinematics.cpp:129 and 139. -/
def T0 : ℕ → SX
  | 0 => B.Ti 0
  | i + 1 => SX.mtimes (T0 i) (B.Ti (i + 1))

/-- `T0i[numJoints+1]`: end-effector transform, src/kinematics.cpp:148. -/
def T0ee : SX := SX.mtimes (B.T0 B.n) (getTransform B.ee)

/-- `T_0i(r_rot_idx,r_rot_idx)`. -/
def R0 (i : ℕ) : SX := SX.block (B.T0 i) 0 3 0 3
/-- `T_0i(r_tra_idx,3)`. -/
def P0 (i : ℕ) : SX := SX.block (B.T0 i) 0 3 3 1
/-- `T_0j(r_rot_idx,2)`. -/
def K0 (j : ℕ) : SX := SX.block (B.T0 j) 0 3 2 1

/-- Position column of joint `j` for a point `O`, src/kinematics.cpp:211-236 and src/dynamics.cpp:153-171: joint axis for a
prismatic joint, `hat(k_j) (O - O_j)` for a revolute one; throws for other types.  `j` is the C++ index; its frame is `j+1`. -/
def posCol (O : SX) (j : ℕ) : SX :=
  if isP (B.ty j) then B.K0 (j + 1)
  else
    let c := SX.mtimes (hatX (B.K0 (j + 1))) (SX.sub O (B.P0 (j + 1)))
    { c with ok := c.ok ∧ isR (B.ty j) }

/-- Orientation column of joint `j`: the axis for a revolute joint; never written (zero) for a prismatic one. -/
def orCol (j : ℕ) : SX := if isP (B.ty j) then SX.zeros 3 1 else B.K0 (j + 1)

/-- Matrix with the position columns `j ≤ im` for the point `O`; the columns `j > im` have not been written by the loop of
src/kinematics.cpp:182-264 (which only writes columns `j ≤ i_mod`, `i_mod` non-decreasing) and are zero.  The loop-carried matrix
is replaced by this closed form. -/
def posJac (O : SX) (im : ℕ) : SX :=
  ⟨3, B.n, fun a j => if j ≤ im ∧ j < B.n then (B.posCol O j).e a 0 else .const 0,
    O.ok ∧ ∀ j ≤ im, (B.posCol O j).ok⟩

/-- Matrix with the orientation columns `j ≤ im`. -/
def orJac (im : ℕ) : SX :=
  ⟨3, B.n, fun a j => if j ≤ im ∧ j < B.n then (B.orCol j).e a 0 else .const 0, ∀ j ≤ im, (B.orCol j).ok⟩

/-- `i_mod`, src/kinematics.cpp:183, for a robot with joints.  (Without joints it is −1, the Jacobians have no
columns, and their flag `ok` is not that of the code; the theorems that use it assume `0 < n`.) -/
def imod (i : ℕ) : ℕ := if i < B.n then i else B.n - 1

/-- `Ji_pos` at the end of iteration `i` of `compute_jacobians`, src/kinematics.cpp:182-245; at `i = nj` the end-effector term of
lines 240-245 is subtracted. -/
def Jv (i : ℕ) : SX :=
  let J := B.posJac (B.P0 (B.imod i + 1)) (B.imod i)
  if i = B.n then
    let R := B.R0 (B.imod i + 1)
    let eeTr := SX.block (getTransform B.ee) 0 3 3 1
    SX.sub J (SX.mtimes (SX.mtimes (SX.mtimes R (hatX eeTr)) (SX.transp R)) (B.orJac (B.imod i)))
  else J

/-- `Ji_or` at the end of iteration `i`. -/
def Jw (i : ℕ) : SX := B.orJac (B.imod i)

/-- `Ji[i]`, src/kinematics.cpp:256; registered as `J_{i+1}` (and `J_ee` for `i = nj`). -/
def J (i : ℕ) : SX := SX.vcat (B.Jv i) (B.Jw i)

/-- `J_ee`. -/
def Jee : SX := B.J B.n

/-- `dJn`, src/kinematics.cpp:284. -/
def JeeDot : SX := SX.jtimes B.Jee B.q B.dq

/-- `ddJn`, src/kinematics.cpp:285. -/
def JeeDdot : SX := SX.add (SX.jtimes B.JeeDot B.q B.dq) (SX.jtimes B.JeeDot B.dq B.ddq)

/-- `invJn_dumped`, src/kinematics.cpp:292, with `MU = 0.02` (src/kinematics.cpp:6, decimal value). -/
def invJn : SX := SX.inv (SX.add (SX.mtimes B.Jee (SX.transp B.Jee)) (SX.scale (.const 0.02) (SX.eye 6)))

/-- `pinvJn`, src/kinematics.cpp:293. -/
def JeePinv : SX := SX.mtimes (SX.transp B.Jee) B.invJn

end Base

end

end Thunder
