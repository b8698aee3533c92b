import Verif.Model.Pipeline

/-!
# User-defined functions: `src/thunder/src/userDefined.cpp`

`compute_userDefined` is a hook: the user writes calls of `add_function` into it and rebuilds the generator.  Here the hook is a list of such
registrations; the expressions may use what the robot contains at that point.
-/

namespace Thunder

namespace Robot

open Act

noncomputable section

/-- One function written by the user, as in src/userDefined.cpp:41-45: `sure` and `possible` are the arguments of `obtain_symb_parameters`. -/
structure UserFun where
  name : String
  expr : Robot → SX
  sure : List String
  possible : List String
  descr : String

/-- The registration in a given state. -/
def UserFun.reg (u : UserFun) (r : Robot) : Reg := ⟨u.name, u.expr r, u.sure, u.possible, u.descr⟩

/-- `compute_userDefined`, src/userDefined.cpp:8-18, with the functions of the user. -/
def computeUser : List UserFun → Act Robot Unit
  | [] => pure ()
  | u :: us => do
    let r ← read
    register (u.reg r)
    computeUser us

variable [Fl]

/-- `fillRobot` (src/robot.cpp:1131-1157) with a user hook. -/
def fillRobotWith (us : List UserFun) (name : String) (file : Option Yaml) (compute : Bool) : Act Robot Unit := do
  modify fun r => { r with name := name }
  let _ ← loadConfPar file true
  if compute then do
    initSymb
    computeKinematics
    computeDynamics
    computeRegressors
    computeUser us
    updateSymb
  else pure ()

/-- `robot_from_file` (src/robot.cpp:1126-1159) with a user hook. -/
def robotFromFileWith (us : List UserFun) (name : String) (file : Option Yaml) (compute : Bool) : Made :=
  match constructFile file with
  | .ok r =>
    match fillRobotWith us name file compute r with
    | .ok _ r' => .ok r'
    | .yaml _ => .exc
    | .exc _ => .exc
    | .ub => .ub
  | .exc => .exc
  | .ub => .ub

/-- Sum of the squares of the entries of a column. -/
def sumSquares (l : List Expr) : Expr := l.foldr (fun e s => .add (.mul e e) s) (.const 0)

/-- `compute_example_fun`, src/userDefined.cpp:20-51, for a configuration with a vector `q0`: the example that the comments tell the user to try.
`casadi::SX::norm_2` of a column is the square root of the sum of the squares. -/
def exampleFun (q0 : ℕ → ℝ) : UserFun where
  name := "q0_dist"
  expr := fun r => SX.ofList [.sqrt (sumSquares ((List.range r.n).map fun i => .sub ((r.mod "q").e i 0) (.const (q0 i))))]
  sure := ["q", "q0"]
  possible := []
  descr := "distance from q0"

end

end Robot

end Thunder
