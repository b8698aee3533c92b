import Verif.Model.Generated
import Verif.Model.TestMain

/-!
# The program `thunder_robot_test`: `src/thunder_robot/thunder_robot_test.cpp`

The program includes the header of one generated class and reads one configuration file; both are named in its source.  The model has as arguments the
robot from which the class was generated and the tree of the file.  Line numbers refer to that file.  Not modelled: the layout of the printed text, what is
written to the standard error output, and the size that an Eigen variable has before its first assignment (an assignment resizes it).
-/

namespace Thunder.ClassTest

open Robot

noncomputable section

/-- The getters called in lines 88-104. -/
def used : List String := ["T_0_ee", "J_ee", "M", "C", "G", "Yr"]

/-- The generated class has the member function `get_<f>`, and it compiles. -/
def hasGetter (g : Robot) (f : String) : Bool := (g.funs.find f).isSome && ((g.funArgs.get f []).mapM Wrap.member).isSome

/-- How the program ends. -/
inductive End
  | printed (out : List (String × Mat))
  /-- Undefined behaviour. -/
  | undef
  /-- The program cannot be compiled. -/
  | notBuilt

/-- The value of a getter that exists. -/
def value : Wrap.Got → Option Mat
  | .value m => some m
  | _ => none

/-- Line 107: `M*ddqr + C*dqr + G`. -/
def torque (M C G : Mat) (ddqr dqr : List Num) : Option Mat := do
  let a ← Mat.mul M (.col ddqr)
  let b ← Mat.mul C (.col dqr)
  let ab ← Mat.zip Num.add a b
  Mat.zip Num.add ab G

/-- Lines 79-122: what is printed, in order, for the object `o`; `none` is undefined behaviour. -/
def body (g : Robot) (o : Wrap.Obj) : Option (List (String × Mat)) := do
  let zero := List.replicate (Wrap.cfgOf g).n (some (0 : ℝ))
  let kin ← value (Wrap.getter g "T_0_ee" o)
  let jac ← value (Wrap.getter g "J_ee" o)
  let M ← value (Wrap.getter g "M" o)
  let C ← value (Wrap.getter g "C" o)
  let G ← value (Wrap.getter g "G" o)
  let Y ← value (Wrap.getter g "Yr" o)
  let dyn ← torque M C G zero zero
  let reg ← Mat.mul Y (.col (o.vec .REG))
  let diff ← Mat.zip Num.sub dyn reg
  pure [("par_DYN", (Mat.col (o.vec .DYN)).tr), ("par_REG", (Mat.col (o.vec .REG)).tr), ("par_Dl", (Mat.col (o.vec .Dl)).tr), ("Kin", kin), ("Jac", jac),
    ("M", M), ("C", C), ("G", G), ("Yr", Y), ("tau_cmd_dyn", dyn), ("tau_cmd_reg", reg), ("diff tau_cmd", diff), ("world2L0", Mat.col (o.vec .W2L)),
    ("par_Ln2EE", Mat.col (o.vec .EE))]

/-- Lines 42-44 and 70-77: a new object, `load_conf` and `setArguments` with all joint coordinates one and the rest zero. -/
def prepare (c : Wrap.Cfg) (file : Option Yaml) : Option Wrap.Obj :=
  (Wrap.loadConf c file true (Wrap.init c)).bind fun o =>
    (Wrap.setArguments c (List.replicate c.n (some 1)) (List.replicate c.n (some 0)) (List.replicate c.n (some 0)) (List.replicate c.n (some 0)) o).caught

/-- `main`, lines 35-185, for the class generated from `g` and the given file. -/
def main (g : Robot) (file : Option Yaml) : End :=
  if used.all (hasGetter g) then
    match (prepare (Wrap.cfgOf g) file).bind (body g) with
    | some out => .printed out
    | none => .undef
  else .notBuilt

end

end Thunder.ClassTest
