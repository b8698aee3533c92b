import Verif.Model.Robot
import Verif.Model.Wrapper

/-!
# The getters of the generated class

`change_to_robot` (src/utils.cpp:106-256) writes one member function `get_<name>` for each registered function, which passes the member vectors
named by the function's arguments to the C code emitted by CasADi.  Paths are relative to /repo/src/thunder.

Simplifications: the C code computes the value of the CasADi function; it reads exactly the entries that belong to the symbols of each input and
writes the dense output column by column.  `get_functions` inserts missing entries into the maps of the generating robot (src/robot.cpp:577-580);
it is used here on robots for which none is missing.
-/

namespace Thunder.Wrap

noncomputable section

/-- The constants written into the header, src/utils.cpp:146-153. -/
def cfgOf (r : Robot) : Cfg := ⟨r.n, r.ne, r.kOrd, r.dOrd, r.dlOrd, r.dmOrd⟩

/-- The member vectors by name, thunder_robot_template/thunder_robot.h:21-24. -/
def members : List (String × Field) :=
  [("q", .q), ("dq", .dq), ("ddq", .ddq), ("d3q", .d3q), ("d4q", .d4q), ("dqr", .dqr), ("ddqr", .ddqr), ("par_DYN", .DYN), ("par_REG", .REG),
    ("par_Dl", .Dl), ("x", .x), ("dx", .dx), ("ddx", .ddx), ("ddxr", .ddxr), ("par_K", .K), ("par_D", .D), ("par_Dm", .Dm), ("par_Mm", .Mm),
    ("w", .w), ("par_DHtable", .DH), ("par_gravity", .G), ("par_world2L0", .W2L), ("par_Ln2EE", .EE)]

/-- The member a name in the generated source refers to. -/
def member (a : String) : Option Field := (members.find? fun p => p.1 == a).map Prod.snd

/-- Outcome of calling a getter. -/
inductive Got
  | value (m : Robot.Mat)
  /-- The C code reads behind the end of a member vector or of the array of pointers, or writes behind the end of the buffer. -/
  | ub
  /-- There is no such getter, or the generated source does not compile because it names a member that does not exist. -/
  | unknown

/-- What the C code reads through `<member>.data()` for an input with the symbols `vs`. -/
def readInput (vs : List Var) (v : List Num) : Option (List (Var × Num)) := if vs.length ≤ v.length then some (List.zip vs v) else none

/-- A call of the generated `get_<f>` on the object `s`, src/utils.cpp:204-229.  The size of the buffer and of the result is that of `model[f]`
(src/robot.cpp:578-579). -/
def getter (r : Robot) (f : String) (s : Obj) : Got :=
  match r.funs.find f, (r.funArgs.get f []).mapM member with
  | some F, some fs =>
    if F.inputs.length ≤ fs.length then
      match (List.zip F.inputs fs).mapM fun p => readInput p.1 (s.vec p.2) with
      | none => .ub
      | some l =>
        match Robot.fill ((r.mod f).rows * (r.mod f).cols) (F.evalWith l.flatten) with
        | none => .ub
        | some d => .value ⟨(r.mod f).rows, (r.mod f).cols, d⟩
    else .ub
  | _, _ => .unknown

end

end Thunder.Wrap
