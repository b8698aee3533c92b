import Verif.Spec.Robot
import Verif.Spec.Config
import Verif.Spec.Pipeline
import Verif.Model.Generated

/-!
# Using a robot and the class generated from it side by side
-/

namespace Thunder.Spec

open Thunder.Wrap (VarField Call)

/-- What the user does: set a variable of motion on both objects, or load the configuration file into the object of the generated class. -/
inductive Step
  | set (f : VarField) (v : List Num)
  | load (upd : Bool)

/-- Name of the argument that corresponds to the setters `set_q` … `set_w` of the generated class. -/
def varArg : VarField → String
  | .q => "q" | .dq => "dq" | .ddq => "ddq" | .d3q => "d3q" | .d4q => "d4q" | .dqr => "dqr" | .ddqr => "ddqr"
  | .x => "x" | .dx => "dx" | .ddx => "ddx" | .ddxr => "ddxr" | .w => "w"

/-- Number of its components. -/
def components (c : Conf) (f : VarField) : ℕ :=
  if f ∈ [VarField.x, .dx, .ddx, .ddxr] then c.ne else if f = .w then 6 else c.n

/-- The values have the right number. -/
def Step.Fits (c : Conf) : Step → Prop
  | .set f v => v.length = components c f
  | .load _ => True

/-- The calls on the object of the generated class. -/
def Step.onClass (y : Yaml) : Step → Call
  | .set f v => .setVar f v
  | .load u => .loadConf (some y) u

/-- The calls on the robot (which was built from the file). -/
def Step.onRobot : Step → List RCall
  | .set f v => [.setArg (varArg f) v]
  | .load _ => []

/-- The values of the symbolic entries, one after the other, are the first values of the vector.  This is so when all entries are symbolic, when
none is, and more generally when the symbolic entries come first. -/
def InFront (k : ℕ) (f : ℕ → ℤ) (x : ℕ → ℝ) : Prop := ∃ l, ((List.range k).filter fun i => f i ≠ 0).map x ++ l = (List.range k).map x

/-- The parameters of links and actuators of which some are symbolic are `InFront`. -/
structure Aligned (c : Conf) : Prop where
  dyn : InFront (10 * c.n) c.fdyn c.dyn
  dl : InFront (c.dlO * c.n) c.fdl c.dl
  K : c.elastic = true → InFront (c.kO * c.ne) c.fK c.K
  D : c.elastic = true → InFront (c.dO * c.ne) c.fD c.D
  Dm : c.elastic = true → InFront (c.dmO * c.ne) c.fDm c.Dm
  Mm : c.elastic = true → InFront c.ne c.fMm c.Mm

end Thunder.Spec
