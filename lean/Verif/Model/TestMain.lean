import Verif.Model.Pipeline

/-!
# The program `thunder_test`: `thunder_test.cpp`

The program reads one robot file, named in the source, and prints numbers.  The model has the tree of the file as an argument.  Not modelled: the layout
of the printed text, and the size that an Eigen variable has before its first assignment (an assignment resizes it).
-/

namespace Thunder

open Act Robot

noncomputable section

/-! ## Eigen arithmetic

A product or sum of matrices whose sizes do not fit (an assertion in Eigen, undefined if assertions are off) is `none`. -/

/-- An entry. -/
def Robot.Mat.entry (m : Mat) (i j : ℕ) : Num := m.data.getD (i + m.rows * j) none

/-- A vector as a column. -/
def Robot.Mat.col (v : List Num) : Mat := ⟨v.length, 1, v⟩

/-- `transpose()`. -/
def Robot.Mat.tr (m : Mat) : Mat := ⟨m.cols, m.rows, (List.range (m.rows * m.cols)).map fun k => m.entry (k / m.cols) (k % m.cols)⟩

/-- `A * B`. -/
def Robot.Mat.mul (A B : Mat) : Option Mat :=
  if A.cols = B.rows then
    some ⟨A.rows, B.cols, (List.range (A.rows * B.cols)).map fun k =>
      ((List.range A.cols).map fun l => Num.mul (A.entry (k % A.rows) l) (B.entry l (k / A.rows))).foldl Num.add (some 0)⟩
  else none

/-- An operation on the entries. -/
def Robot.Mat.zip (op : Num → Num → Num) (A B : Mat) : Option Mat :=
  if A.rows = B.rows ∧ A.cols = B.cols then some ⟨A.rows, A.cols, List.zipWith op A.data B.data⟩ else none

namespace Test

/-- The expressions in lines 193, 194 and 197: `M*ddqr + C*dqr + G - Yr*par_REG`. -/
def residual (M C G Y : Mat) (ddqr dqr reg : List Num) : Option Mat := do
  let a ← Mat.mul M (.col ddqr)
  let b ← Mat.mul C (.col dqr)
  let ab ← Mat.zip Num.add a b
  let dyn ← Mat.zip Num.add ab G
  let yp ← Mat.mul Y (.col reg)
  Mat.zip Num.sub dyn yp

/-- Functions evaluated and printed one after the other, each under a heading. -/
def prints : List (String × String) → Act Robot (List (String × Mat))
  | [] => pure []
  | (label, f) :: l => do
    let m ← get f
    let rest ← prints l
    pure ((label, m) :: rest)

/-- Lines 131-149: frames and Jacobians. -/
def poses : List (String × String) :=
  [("Kin_ee", "T_0_ee"), ("Kin0", "T_0_0"), ("Kin1", "T_0_1"), ("Kin2", "T_0_2"), ("Kin3", "T_0_3"),
    ("Jac", "J_ee"), ("Jac1", "J_1"), ("Jac2", "J_2"), ("Jac3", "J_3")]

/-- Lines 159-166: friction of the links. -/
def links (r : Robot) : Act Robot (List (String × Mat)) := if r.dlI ≠ 0 then prints [("D_link", "dl"), ("reg_Dl", "reg_dl")] else pure []

/-- Lines 167-184: elastic joints. -/
def motors (r : Robot) : Act Robot (List (String × Mat)) :=
  if r.elastic then do
    let l ← prints [("K", "k"), ("D_coupling", "d"), ("D_motor", "dm"), ("M_motor", "Mm")]
    let k ← get "reg_k"
    let d ← get "reg_d"
    let dm ← get "reg_dm"
    let mm ← get "reg_Mm"
    pure (l ++ [("reg_K", k), ("reg_Dm", dm), ("reg_D", d), ("reg_Mm", mm)])
  else pure []

/-- Lines 107-122: the seven setters, with `q` one and the others zero. -/
def setAll (r : Robot) : Act Robot Unit := do
  let _ ← setVar .q (List.replicate r.n (some 1))
  let _ ← setVar .dq (List.replicate r.n (some 0))
  let _ ← setVar .dqr (List.replicate r.n (some 0))
  let _ ← setVar .ddqr (List.replicate r.n (some 0))
  let _ ← setVar .x (List.replicate r.ne (some 0))
  let _ ← setVar .dx (List.replicate r.ne (some 0))
  let _ ← setVar .ddx (List.replicate r.ne (some 0))
  pure ()

/-- Lines 85-100: the parameters. -/
def pars : Act Robot (List Num × List (String × Mat)) := do
  let reg ← getParREG
  let dyn ← getParDYN
  let dl ← getArg "par_Dl"
  let k ← getArg "par_K"
  let d ← getArg "par_D"
  let dm ← getArg "par_Dm"
  let mm ← getArg "par_Mm"
  let dh ← get "par_DHtable"
  pure (reg, [("par_DHtable", dh.tr), ("par_DYN", (Mat.col dyn).tr), ("par_REG", (Mat.col reg).tr), ("par_Dl", (Mat.col dl).tr), ("par_K", (Mat.col k).tr),
    ("par_D", (Mat.col d).tr), ("par_Dm", (Mat.col dm).tr), ("par_Mm", (Mat.col mm).tr)])

/-- Lines 39-197: what is printed, in order. -/
def body : Act Robot (List (String × Mat)) := do
  let r ← read
  let (reg, p) ← pars
  setAll r
  let kin ← prints poses
  let M ← get "M"
  let C ← get "C"
  let Cs ← get "C_std"
  let G ← get "G"
  let dl ← links r
  let el ← motors r
  let Y ← get "Yr"
  let _ ← get "reg_M"
  let _ ← get "reg_C"
  let _ ← get "reg_G"
  let e ← ofIdx (residual M C G Y (List.replicate r.n (some 0)) (List.replicate r.n (some 0)) reg)
  pure (p ++ kin ++ [("M", M), ("C", C), ("C_std", Cs), ("G", G)] ++ dl ++ el ++ [("err_dyn_reg", e)])

/-- How the program ends. -/
inductive End
  | printed (out : List (String × Mat))
  /-- An exception that is not caught. -/
  | thrown
  /-- Undefined behaviour. -/
  | undef

/-- `main`, lines 25-245, for the given file. -/
def main [Fl] (file : Option Yaml) : End :=
  match robotFromFile "testRobot" file true with
  | .exc => .thrown
  | .ub => .undef
  | .ok r =>
    match body r with
    | .ok out _ => .printed out
    | .yaml _ => .thrown
    | .exc _ => .thrown
    | .ub => .undef

end Test

end

end Thunder
