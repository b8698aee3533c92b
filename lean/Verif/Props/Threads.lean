import Verif.Lemmas.Threads
import Mathlib.Data.Int.Notation

/-!
# Property theorems: concurrent getters (C49)
-/

namespace Thunder.Threads

variable {Obj Val Loc : Type} [DecidableEq Loc]

/-- C49: whatever the threads call and however they are interleaved, the values thread `t` has received are, call by call, the values those
calls return when run alone (from arbitrary buffer contents `m`).  The buffers are `thread_local`; no getter reads a buffer entry that it did
not write in the same call. -/
theorem C49_values (obj : Obj) (prog : ℕ → List (Getter Obj Val Loc)) (hp : ∀ t, ∀ g ∈ prog t, g.Init)
    (mem : Option ℕ × Loc → Val) (sched : List ℕ) (t : ℕ) (m : Loc → Val) :
    ((run .threadLocal obj sched (start prog mem)).threads t).results =
      ((prog t).take ((run .threadLocal obj sched (start prog mem)).threads t).results.length).map fun g => g.alone obj m := by
  have h := inv_run obj prog hp sched (start prog mem)
    (fun t => ⟨[], fun _ => rfl, rfl⟩) t
  generalize (run .threadLocal obj sched (start prog mem)).threads t = th at h
  obtain ⟨done, hr, h⟩ := h
  have hd : ∃ rest, prog t = done ++ rest := by
    rcases hc : th.cur with _ | f
    · rw [hc] at h; exact ⟨_, h⟩
    · rw [hc] at h
      obtain ⟨g, _, _, _, e, _⟩ := h
      exact ⟨_, e⟩
  obtain ⟨rest, hd⟩ := hd
  have hl : th.results.length = done.length := by rw [hr m]; simp
  rw [hl, hd, List.take_left, hr m]

/-- C49, completion: once the schedule has given thread `t` as many steps as its calls need, all of them have returned, each with the value
it returns alone. -/
theorem C49_complete (obj : Obj) (prog : ℕ → List (Getter Obj Val Loc)) (hp : ∀ t, ∀ g ∈ prog t, g.Init)
    (mem : Option ℕ × Loc → Val) (sched : List ℕ) (t : ℕ) (hs : cost (prog t) ≤ sched.count t) (m : Loc → Val) :
    ((run .threadLocal obj sched (start prog mem)).threads t).results = (prog t).map fun g => g.alone obj m := by
  have h := inv_run obj prog hp sched (start prog mem) (fun t => ⟨[], fun _ => rfl, rfl⟩) t
  have hl : left ((run .threadLocal obj sched (start prog mem)).threads t) = 0 := by
    rw [left_run]
    simp only [start, left]
    omega
  generalize (run .threadLocal obj sched (start prog mem)).threads t = th at h hl
  obtain ⟨ht, hc⟩ := idle_of_left th hl
  obtain ⟨done, hr, h⟩ := h
  rw [hc, ht] at h
  simp only [List.append_nil] at h
  rw [h, hr m]

namespace Ex

/-- `buffer[0] = q; buffer[1] = buffer[0] * buffer[0]` and return both. -/
def sq : Getter ℤ ℤ ℕ := ⟨[⟨0, [], fun q _ => q⟩, ⟨1, [0], fun _ l => l.headD 0 * l.headD 0⟩], [0, 1]⟩

/-- `buffer[0] = q + 5` and return it. -/
def inc : Getter ℤ ℤ ℕ := ⟨[⟨0, [], fun q _ => q + 5⟩], [0]⟩

def prog : ℕ → List (Getter ℤ ℤ ℕ)
  | 0 => [sq]
  | 1 => [inc]
  | _ => []

/-- Thread 1 overwrites entry 0 between the two assignments of thread 0. -/
def sched : List ℕ := [0, 0, 1, 1, 0, 0, 0, 0, 1, 1]

theorem init (t : ℕ) : ∀ g ∈ prog t, g.Init := by
  intro g hg
  match t with
  | 0 =>
    obtain rfl : g = sq := by simpa [prog] using hg
    simp [Getter.Init, InitOK, sq]
  | 1 =>
    obtain rfl : g = inc := by simpa [prog] using hg
    simp [Getter.Init, InitOK, inc]
  | t + 2 => simp [prog] at hg

end Ex

example : ((run .threadLocal (3 : ℤ) Ex.sched (start Ex.prog fun _ => 0)).threads 0).results = [[3, 9]] := by
  rw [C49_complete 3 Ex.prog Ex.init _ _ 0 (by decide) fun _ => 0]
  decide

/-- With `static` instead of `thread_local` buffers the claim is false: the interleaving above returns `[8, 64]` for the call whose value alone
is `[3, 9]`. -/
theorem C49_static_fails : ∃ (prog : ℕ → List (Getter ℤ ℤ ℕ)) (sched : List ℕ), (∀ t, ∀ g ∈ prog t, g.Init) ∧
    cost (prog 0) ≤ sched.count 0 ∧
    ((run .static (3 : ℤ) sched (start prog fun _ => 0)).threads 0).results ≠ (prog 0).map fun g => g.alone 3 fun _ => 0 :=
  ⟨Ex.prog, Ex.sched, Ex.init, by decide, by decide⟩

end Thunder.Threads
