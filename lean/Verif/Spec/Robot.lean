import Verif.Model.Robot

/-!
# What the class `Robot` should guarantee

Calls on a robot and what a caller can observe of them; the inputs a user-defined function is entitled to.
-/

namespace Thunder.Spec

open Thunder.Robot

/-- Member functions a caller may use. -/
inductive RCall
  | get (name : String)
  | setArg (name : String) (v : List Num)
  | setVar (f : VarName) (v : List Num)
  | setParDYN (v : List Num)
  | setParREG (v : List Num)
  | getArg (name : String)
  | getParDYN
  | getParREG
  | updateDYN
  | updateREG
  | loadConfPar (file : Option Yaml) (upd : Bool)
  | loadParREG (file : Option Yaml) (upd : Bool)
  | loadPar (file : Option Yaml) (names : List String)
  | saveParREG
  | savePar (names : List String)
  | addFunction (f : String) (expr : SX) (fargs : List String) (descr : String) (overwrite : Bool)
  | initSymb
  | updateSymb

/-- What a call gives back. -/
inductive Obs
  | int (k : ℤ)
  | mat (m : Mat)
  | vec (v : List Num)
  | file (y : Yaml)
  | nothing

/-- Forget the kind of the result. -/
def obs {α : Type} (f : α → Obs) (a : Act Robot α) : Act Robot Obs := a >>= fun x => pure (f x)

noncomputable def RCall.run : RCall → Act Robot Obs
  | .get name => obs .mat (Robot.get name)
  | .setArg name v => obs .int (Robot.setArg name v)
  | .setVar f v => obs .int (Robot.setVar f v)
  | .setParDYN v => obs .int (Robot.setParDYN v)
  | .setParREG v => obs .int (Robot.setParREG v)
  | .getArg name => obs .vec (Robot.getArg name)
  | .getParDYN => obs .vec Robot.getParDYN
  | .getParREG => obs .vec Robot.getParREG
  | .updateDYN => obs .int Robot.updateDYN
  | .updateREG => obs .int Robot.updateREG
  | .loadConfPar f u => obs .int (Robot.loadConfPar f u)
  | .loadParREG f u => obs .vec (Robot.loadParREG f u)
  | .loadPar f l => obs .int (Robot.loadPar f l)
  | .saveParREG => obs .file Robot.saveParREG
  | .savePar l => obs .file (Robot.savePar l)
  | .addFunction f e a d o => obs .int (Robot.addFunction f e a d o)
  | .initSymb => obs (fun _ => .nothing) Robot.initSymb
  | .updateSymb => obs (fun _ => .nothing) Robot.updateSymb

/-- The argument `set_q` … `set_ddxr` is named after. -/
def argName : VarName → String
  | .q => "q" | .dq => "dq" | .dqr => "dqr" | .ddqr => "ddqr" | .x => "x" | .dx => "dx" | .ddx => "ddx" | .ddxr => "ddxr"
/-- Number of its components: one for each joint, or one for each elastic joint. -/
def argSize (r : Robot) (f : VarName) : ℕ := if f ∈ [VarName.q, .dq, .dqr, .ddqr] then r.n else r.ne

/-- What the caller sees: the returned value, the kind of exception, or undefined behaviour. -/
inductive Seen
  | ret (o : Obs)
  | yaml
  | exc
  | ub

/-- What is seen of a history of calls (the caller may go on after an exception). -/
noncomputable def trace : List RCall → Robot → List Seen
  | [], _ => []
  | c :: cs, r =>
    match c.run r with
    | .ok o r' => .ret o :: trace cs r'
    | .yaml r' => .yaml :: trace cs r'
    | .exc r' => .exc :: trace cs r'
    | .ub => [.ub]

/-- The robot after a history of calls; `none` if one of them has undefined behaviour. -/
noncomputable def after : List RCall → Robot → Option Robot
  | [], r => some r
  | c :: cs, r =>
    match c.run r with
    | .ok _ r' => after cs r'
    | .yaml r' => after cs r'
    | .exc r' => after cs r'
    | .ub => none

/-- The returned matrix has the size of `A` and the entries of `A`, evaluated in `ρ`, column by column. -/
def MatIs (m : Mat) (A : SX) (ρ : Var → ℝ) : Prop :=
  m.rows = A.rows ∧ m.cols = A.cols ∧ m.data.length = A.rows * A.cols ∧
    ∀ i < A.rows, ∀ j < A.cols, m.data[i + A.rows * j]? = some (some ((A.e i j).eval ρ))

/-- `vs` are the symbols of the rows of `A` that are marked symbolic, in order. -/
def Selected (fl : List ℤ) (A : SX) (vs : List Var) : Prop :=
  A.rows ≤ fl.length ∧ ((List.range A.rows).filter fun i => fl.getD i 0 ≠ 0).map (fun i => A.e i 0) = vs.map Expr.var

/-- `v` is an entry of the vector that the robot holds under the name `a`. -/
def SymbolOf (r : Robot) (a : String) (v : Var) : Prop := ∃ i < (r.mod a).rows, (r.mod a).e i 0 = .var v

/-- The symbolic entries come before the numeric ones. -/
def SymbolicFirst (fl : List ℤ) : Prop := ∀ i j, i < j → j < fl.length → fl.getD j 0 ≠ 0 → fl.getD i 0 ≠ 0

/-- Every expression of the symbols of the vectors `fargs` can be added under the name `f`, and is then evaluated by `get` at the stored values of
these vectors. -/
def Usable (r : Robot) (f : String) (fargs : List String) : Prop :=
  ∀ (expr : SX) (descr : String), (∀ i < expr.rows, ∀ j < expr.cols, ∀ v ∈ (expr.e i j).fv, ∃ a ∈ fargs, SymbolOf r a v) →
    ∃ r', addFunction f expr fargs descr true r = .ok 1 r' ∧ ∀ (args : SMap (List Num)) (ρ : Var → ℝ),
      (∀ a ∈ fargs, ({ r' with args := args } : Robot).arg a = (List.range (r.mod a).rows).map fun i => some (((r.mod a).e i 0).eval ρ)) →
      ∃ m r'', Robot.get f { r' with args := args } = .ok m r'' ∧ MatIs m expr ρ

end Thunder.Spec
