import Verif.Model.Threads

/-!
# What a getter returns when nobody else runs

Plain sequential execution of one call on one private copy of the buffers.  Threads, schedules and storage classes do not occur here.
-/

namespace Thunder.Threads

variable {Obj Val Loc : Type} [DecidableEq Loc]

/-- Sequential execution of assignments on one copy of the buffers. -/
def evalCode (obj : Obj) (code : List (Instr Obj Val Loc)) (m : Loc → Val) : Loc → Val :=
  code.foldl (fun m i => Function.update m i.dst (i.op obj (i.srcs.map m))) m

/-- What a getter returns when it runs alone from buffer contents `m`. -/
def Getter.alone (g : Getter Obj Val Loc) (obj : Obj) (m : Loc → Val) : List Val := g.out.map (evalCode obj g.code m)

/-- Every entry is written before it is read (`W`: entries written so far). -/
def InitOK : List (Instr Obj Val Loc) → List Loc → List Loc → Prop
  | [], out, W => ∀ l ∈ out, l ∈ W
  | i :: code, out, W => (∀ l ∈ i.srcs, l ∈ W) ∧ InitOK code out (i.dst :: W)

/-- The getter never reads a buffer entry it did not write in the same call. -/
def Getter.Init (g : Getter Obj Val Loc) : Prop := InitOK g.code g.out []

end Thunder.Threads
