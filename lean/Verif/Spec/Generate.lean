import Verif.Spec.Instantiate
import Verif.Spec.Pipeline
import Verif.Model.User

/-!
# Specification: the generated class belongs to the robot
-/

namespace Thunder.Spec

open Thunder.Robot

/-- A text within one line, without the character of the template's markers. -/
def Plain (s : String) : Prop := '\n' ∉ s.toList ∧ '#' ∉ s.toList

/-- The parameters that can be arguments of a function. -/
def parNames : List String :=
  ["par_DYN", "par_Dl", "par_K", "par_D", "par_Dm", "par_Mm", "par_DHtable", "par_world2L0", "par_Ln2EE", "par_gravity"]

/-- Functions added by the user: a function is not named like an argument, no argument is a function, and the texts fit into a line. -/
structure UserFuns (c : Conf) (us : List UserFun) : Prop where
  name : ∀ u ∈ us, u.name ∉ motionNames ++ parNames
  args : ∀ u ∈ us, ∀ a ∈ u.sure ++ u.possible, a ∉ library c ∧ a ∉ us.map UserFun.name
  text : ∀ u ∈ us, Plain u.name ∧ Plain u.descr ∧ ∀ a ∈ u.sure ++ u.possible, Plain a

/-- The getter `d` (with its lines) fits the function `f` of the robot: it returns a matrix of the size of the output of the CasADi function, calls
the C function generated for it, and passes the data of the declared arguments, which are in the order of the inputs of the CasADi function: input
number `i` consists of the symbols of argument number `i`. -/
def Fits (r : Robot) (robot : List Char) (f : String) (d : Getter × List (List Char)) : Prop :=
  ∃ fargs vs A, r.funArgs.find f = some fargs ∧ r.funs.find f = some ⟨vs, A⟩ ∧ d.1 = ⟨A.rows, A.cols, f.toList⟩ ∧
    Body d.2 d.1 (robot ++ "_".toList ++ f.toList ++ "_fun".toList) (fargs.map String.toList) ∧
    List.Forall₂ (fun a l => r.model.find a = some (SX.ofList (l.map Expr.var))) fargs vs

/-- The header `h` declares and the source `s` defines one getter for each of the functions `fs`, and no others. -/
def ClassOf (r : Robot) (robot h s : List Char) (fs : List String) : Prop :=
  ∃ ds : List (Getter × List (List Char)), Declared (textLines h) (ds.map Prod.fst) ∧ Defined robot (textLines s) ds ∧ List.Forall₂ (Fits r robot) fs ds

/-- The line binds the getter of `f` for Python. -/
def Binds (r : Robot) (robot : List Char) (f : String) (l : List Char) : Prop :=
  ∃ ws d, Blank ws ∧ r.funDescr.find f = some d ∧ l = ws ++ ".def(\"get_".toList ++ f.toList ++ "\", &thunder_".toList ++ robot ++ "::get_".toList ++
    f.toList ++ ", \"".toList ++ d.toList ++ "\")".toList

end Thunder.Spec
