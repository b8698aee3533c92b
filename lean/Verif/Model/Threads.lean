import Mathlib.Data.List.Basic

/-!
# Concurrent calls of generated getters

The getters emitted by `change_to_robot` (src/utils.cpp:196-229) declare their output buffer and the two work arrays of the CasADi function
`thread_local`, run the C function on them and return a copy of the buffer.  The C function is a straight-line sequence of assignments
`w[i] = op(…)`, `res[k] = w[j]` that reads the member vectors of the object and the work arrays.  Any interleaving of single assignments of
any number of threads is an execution.  Reads and writes of single array entries are atomic in the model.
-/

namespace Thunder.Threads

variable {Obj Val Loc : Type}

/-- One assignment: the entry `dst` of a buffer gets a value computed from the object and from other entries. -/
structure Instr (Obj Val Loc : Type) where
  dst : Loc
  srcs : List Loc
  op : Obj → List Val → Val

/-- A getter: its assignments and the buffer entries copied into the returned matrix. -/
structure Getter (Obj Val Loc : Type) where
  code : List (Instr Obj Val Loc)
  out : List Loc

/-- Storage class of the buffers: `thread_local` or `static`. -/
inductive Storage
  | threadLocal
  | static
  deriving DecidableEq

/-- The address of an entry for a thread: one copy per thread for `thread_local`, one copy in all for `static`. -/
def addr (c : Storage) (t : ℕ) (l : Loc) : Option ℕ × Loc :=
  match c with
  | .threadLocal => (some t, l)
  | .static => (none, l)

/-- A call in progress: remaining assignments, remaining entries to copy, values copied. -/
structure Frame (Obj Val Loc : Type) where
  code : List (Instr Obj Val Loc)
  out : List Loc
  got : List Val

/-- Control state of a thread: remaining calls, current call, values returned so far. -/
structure Thread (Obj Val Loc : Type) where
  todo : List (Getter Obj Val Loc)
  cur : Option (Frame Obj Val Loc)
  results : List (List Val)

/-- The memory and the threads; there is no file to cite, the program that runs the threads is any caller. -/
structure State (Obj Val Loc : Type) where
  mem : Option ℕ × Loc → Val
  threads : ℕ → Thread Obj Val Loc

/-- Next step of one thread: its new memory and control state. -/
def stepThread [DecidableEq Loc] (c : Storage) (obj : Obj) (t : ℕ) (mem : Option ℕ × Loc → Val) (th : Thread Obj Val Loc) :
    (Option ℕ × Loc → Val) × Thread Obj Val Loc :=
  match th.cur with
  | none =>
    match th.todo with
    | [] => (mem, th)
    | g :: rest => (mem, { th with todo := rest, cur := some ⟨g.code, g.out, []⟩ })
  | some ⟨i :: code, out, got⟩ =>
    (Function.update mem (addr c t i.dst) (i.op obj (i.srcs.map fun l => mem (addr c t l))), { th with cur := some ⟨code, out, got⟩ })
  | some ⟨[], l :: out, got⟩ => (mem, { th with cur := some ⟨[], out, got ++ [mem (addr c t l)]⟩ })
  | some ⟨[], [], got⟩ => (mem, { th with cur := none, results := th.results ++ [got] })

/-- One step of the chosen thread. -/
def step [DecidableEq Loc] (c : Storage) (obj : Obj) (t : ℕ) (s : State Obj Val Loc) : State Obj Val Loc :=
  let r := stepThread c obj t s.mem (s.threads t)
  ⟨r.1, Function.update s.threads t r.2⟩

/-- An execution: the schedule lists the thread that moves at each step. -/
def run [DecidableEq Loc] (c : Storage) (obj : Obj) (sched : List ℕ) (s : State Obj Val Loc) : State Obj Val Loc :=
  sched.foldl (fun s t => step c obj t s) s

/-- Every thread has its list of calls to make. -/
def start (prog : ℕ → List (Getter Obj Val Loc)) (mem : Option ℕ × Loc → Val) : State Obj Val Loc :=
  ⟨mem, fun t => ⟨prog t, none, []⟩⟩

end Thunder.Threads
