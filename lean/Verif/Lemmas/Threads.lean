import Verif.Spec.Threads

/-!
# Concurrent getters: helper lemmas
-/

namespace Thunder.Threads

variable {Obj Val Loc : Type} [DecidableEq Loc]

theorem evalCode_cons (obj : Obj) (i : Instr Obj Val Loc) (code : List (Instr Obj Val Loc)) (m : Loc → Val) :
    evalCode obj (i :: code) m = evalCode obj code (Function.update m i.dst (i.op obj (i.srcs.map m))) := rfl

theorem evalCode_append (obj : Obj) (a b : List (Instr Obj Val Loc)) (m : Loc → Val) :
    evalCode obj (a ++ b) m = evalCode obj b (evalCode obj a m) := by simp [evalCode, List.foldl_append]

theorem alone_congr (obj : Obj) : ∀ (code : List (Instr Obj Val Loc)) (out W : List Loc), InitOK code out W →
    ∀ m m' : Loc → Val, (∀ l ∈ W, m l = m' l) → out.map (evalCode obj code m) = out.map (evalCode obj code m')
  | [], out, W, h, m, m', e => List.map_congr_left fun l hl => e l (h l hl)
  | i :: code, out, W, h, m, m', e => by
    rw [evalCode_cons, evalCode_cons]
    refine alone_congr obj code out _ h.2 _ _ fun l hl => ?_
    have hs : i.srcs.map m = i.srcs.map m' := List.map_congr_left fun l hl => e l (h.1 l hl)
    rw [hs]
    by_cases hd : l = i.dst
    · subst hd; simp
    · rw [Function.update_of_ne hd, Function.update_of_ne hd]
      rcases List.mem_cons.mp hl with h' | h'
      · exact absurd h' hd
      · exact e l h'

/-- The thread's own copy of the buffers. -/
def loc (t : ℕ) (mem : Option ℕ × Loc → Val) : Loc → Val := fun l => mem (some t, l)

/-- What is known about thread `t` at any time. -/
def Inv (obj : Obj) (prog : List (Getter Obj Val Loc)) (m : Loc → Val) (th : Thread Obj Val Loc) : Prop :=
  ∃ done : List (Getter Obj Val Loc), (∀ m0, th.results = done.map fun g => g.alone obj m0) ∧
    match th.cur with
    | none => prog = done ++ th.todo
    | some f => ∃ g m0 pre o1, prog = done ++ g :: th.todo ∧ g.code = pre ++ f.code ∧ g.out = o1 ++ f.out ∧ m = evalCode obj pre m0 ∧
        f.got = o1.map (evalCode obj g.code m0) ∧ (o1 ≠ [] → f.code = [])

theorem inv_stepThread (obj : Obj) (t : ℕ) (prog : List (Getter Obj Val Loc)) (hp : ∀ g ∈ prog, g.Init)
    (mem : Option ℕ × Loc → Val) (th : Thread Obj Val Loc) (h : Inv obj prog (loc t mem) th) :
    Inv obj prog (loc t (stepThread .threadLocal obj t mem th).1) (stepThread .threadLocal obj t mem th).2 := by
  obtain ⟨done, hr, h⟩ := h
  obtain ⟨todo, cur, results⟩ := th
  rcases cur with _ | ⟨code, out, got⟩
  · simp only at h hr
    rcases todo with _ | ⟨g, rest⟩
    · exact ⟨done, hr, h⟩
    · exact ⟨done, hr, g, loc t mem, [], [], h, rfl, rfl, rfl, rfl, fun h => absurd rfl h⟩
  · obtain ⟨g, m0, pre, o1, e1, e2, e3, e4, e5, e6⟩ := h
    simp only at hr e1 e2 e3 e4 e5 e6
    rcases code with _ | ⟨i, code⟩
    · rcases out with _ | ⟨l, out⟩
      · refine ⟨done ++ [g], ?_, ?_⟩
        · intro m1
          simp only [stepThread, List.map_append, List.map_cons, List.map_nil]
          rw [← hr m1, e5]
          congr 2
          have hg : g.Init := hp g (by rw [e1]; simp)
          rw [List.append_nil] at e3
          rw [← e3]
          exact alone_congr obj g.code g.out [] hg _ _ (by simp)
        · simp [stepThread, e1]
      · refine ⟨done, hr, g, m0, pre, o1 ++ [l], e1, e2, ?_, e4, ?_, fun _ => rfl⟩
        · simp [e3]
        · simp only [List.map_append, List.map_cons, List.map_nil]
          rw [e5]
          congr 2
          rw [List.append_nil] at e2
          rw [e2, ← e4]
          rfl
    · have ho : o1 = [] := by
        by_contra h
        exact absurd (e6 h) (by simp)
      subst ho
      refine ⟨done, hr, g, m0, pre ++ [i], [], e1, ?_, e3, ?_, e5, fun h => absurd rfl h⟩
      · simp [e2]
      · rw [evalCode_append, ← e4, evalCode_cons]
        funext l
        simp only [stepThread, loc, addr, evalCode, List.foldl_nil]
        by_cases hd : l = i.dst
        · subst hd
          rw [Function.update_self, Function.update_self]
          rfl
        · rw [Function.update_of_ne (by simpa using hd), Function.update_of_ne hd]; rfl

theorem loc_stepThread_other (obj : Obj) {t t' : ℕ} (ht : t ≠ t') (mem : Option ℕ × Loc → Val) (th : Thread Obj Val Loc) :
    loc t (stepThread .threadLocal obj t' mem th).1 = loc t mem := by
  obtain ⟨todo, cur, results⟩ := th
  rcases cur with _ | ⟨_ | ⟨i, code⟩, out, got⟩
  · rcases todo with _ | ⟨g, rest⟩ <;> rfl
  · rcases out with _ | ⟨l, out⟩ <;> rfl
  · funext l
    simp only [stepThread, loc, addr]
    rw [Function.update_of_ne]
    intro h
    exact ht (by simpa using congrArg Prod.fst h)

theorem inv_run (obj : Obj) (prog : ℕ → List (Getter Obj Val Loc)) (hp : ∀ t, ∀ g ∈ prog t, g.Init) (sched : List ℕ) :
    ∀ s : State Obj Val Loc, (∀ t, Inv obj (prog t) (loc t s.mem) (s.threads t)) →
      ∀ t, Inv obj (prog t) (loc t (run .threadLocal obj sched s).mem) ((run .threadLocal obj sched s).threads t) := by
  induction sched with
  | nil => exact fun s h => h
  | cons u sched ih =>
    intro s h
    refine ih (step .threadLocal obj u s) fun t => ?_
    by_cases hu : t = u
    · subst hu
      simp only [step, Function.update_self]
      exact inv_stepThread obj t (prog t) (hp t) s.mem (s.threads t) (h t)
    · simp only [step, Function.update_of_ne hu]
      rw [loc_stepThread_other obj hu]
      exact h t

/-! ## Progress -/

/-- Steps a list of calls takes. -/
def cost (prog : List (Getter Obj Val Loc)) : ℕ := (prog.map fun g => g.code.length + g.out.length + 2).sum

/-- Steps left to a thread. -/
def left (th : Thread Obj Val Loc) : ℕ :=
  cost th.todo + match th.cur with
    | none => 0
    | some f => f.code.length + f.out.length + 1

theorem left_stepThread (c : Storage) (obj : Obj) (t : ℕ) (mem : Option ℕ × Loc → Val) (th : Thread Obj Val Loc) :
    left (stepThread c obj t mem th).2 = left th - 1 := by
  obtain ⟨todo, cur, results⟩ := th
  rcases cur with _ | ⟨_ | ⟨i, code⟩, out, got⟩
  · rcases todo with _ | ⟨g, rest⟩
    · simp [stepThread, left, cost]
    · simp only [stepThread, left, cost, List.map_cons, List.sum_cons]; omega
  · rcases out with _ | ⟨l, out⟩ <;> simp [stepThread, left]
  · simp only [stepThread, left, List.length_cons]; omega

theorem left_run (c : Storage) (obj : Obj) (t : ℕ) (sched : List ℕ) : ∀ s : State Obj Val Loc,
    left ((run c obj sched s).threads t) = left (s.threads t) - sched.count t := by
  induction sched with
  | nil => intro s; simp [run]
  | cons u sched ih =>
    intro s
    refine (ih (step c obj u s)).trans ?_
    by_cases hu : u = t
    · subst hu
      simp only [step, Function.update_self, left_stepThread, List.count_cons_self]
      omega
    · simp only [step, Function.update_of_ne (Ne.symm hu)]
      rw [List.count_cons_of_ne hu]

omit [DecidableEq Loc] in
theorem idle_of_left (th : Thread Obj Val Loc) (h : left th = 0) : th.todo = [] ∧ th.cur = none := by
  obtain ⟨todo, cur, results⟩ := th
  rcases cur with _ | f
  · rcases todo with _ | ⟨g, rest⟩
    · exact ⟨rfl, rfl⟩
    · simp only [left, cost, List.map_cons, List.sum_cons] at h; omega
  · simp only [left] at h; omega

end Thunder.Threads
