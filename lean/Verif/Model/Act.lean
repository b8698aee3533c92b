import Verif.Model.Num
import Mathlib.Data.List.Basic

/-!
# Outcomes of C++ member functions

`Res σ α` is the outcome of running a function on a state: normal return, an exception derived from `YAML::Exception`, another C++ exception
(CasADi, standard library), each with the state reached, or undefined behaviour.  `Act` is the corresponding state monad.
-/

namespace Thunder

/-- Outcome. `ub` is undefined behaviour (access outside a vector, call of a null function). -/
inductive Res (σ α : Type)
  | ok (a : α) (s : σ)
  | yaml (s : σ)
  | exc (s : σ)
  | ub

/-- A piece of code acting on a state. -/
def Act (σ α : Type) := σ → Res σ α

namespace Act

variable {σ α β : Type}

/-- Return of a value. -/
def ret (a : α) : Act σ α := fun s => .ok a s
/-- One statement after the other; whatever is thrown, and undefined behaviour, ends the sequence. -/
def andThen (x : Act σ α) (f : α → Act σ β) : Act σ β := fun s =>
  match x s with
  | .ok a s' => f a s'
  | .yaml s' => .yaml s'
  | .exc s' => .exc s'
  | .ub => .ub

/-- Sequences of statements in `do` notation. -/
instance : Monad (Act σ) where
  pure := ret
  bind := andThen

/-- Current state. -/
def read : Act σ σ := fun s => .ok s s
/-- Assignment to members. -/
def modify (f : σ → σ) : Act σ Unit := fun s => .ok () (f s)
/-- A yaml-cpp operation; `none` is a `YAML::Exception`. -/
def ofYaml (o : Option α) : Act σ α := fun s => match o with | some a => .ok a s | none => .yaml s
/-- A checked operation (CasADi element access, …); `none` is an exception that is not a `YAML::Exception`. -/
def ofExc (o : Option α) : Act σ α := fun s => match o with | some a => .ok a s | none => .exc s
/-- An unchecked access (`std::vector::operator[]`, copy through an iterator); `none` is undefined behaviour. -/
def ofIdx (o : Option α) : Act σ α := fun s => match o with | some a => .ok a s | none => .ub
/-- `try { x } catch (const YAML::Exception&) { h }`. -/
def tryYaml (x h : Act σ α) : Act σ α := fun s =>
  match x s with
  | .yaml s' => h s'
  | r => r

theorem bind_def (x : Act σ α) (f : α → Act σ β) (s : σ) : (x >>= f) s = match x s with
  | .ok a s' => f a s' | .yaml s' => .yaml s' | .exc s' => .exc s' | .ub => .ub := rfl
@[simp] theorem pure_run (a : α) (s : σ) : (pure a : Act σ α) s = .ok a s := rfl
@[simp] theorem read_run (s : σ) : (read : Act σ σ) s = .ok s s := rfl
@[simp] theorem modify_run (f : σ → σ) (s : σ) : modify f s = .ok () (f s) := rfl
@[simp] theorem ofYaml_some (a : α) (s : σ) : ofYaml (some a) s = .ok a s := rfl
@[simp] theorem ofYaml_none (s : σ) : (ofYaml none : Act σ α) s = .yaml s := rfl
@[simp] theorem ofExc_some (a : α) (s : σ) : ofExc (some a) s = .ok a s := rfl
@[simp] theorem ofExc_none (s : σ) : (ofExc none : Act σ α) s = .exc s := rfl
@[simp] theorem ofIdx_some (a : α) (s : σ) : ofIdx (some a) s = .ok a s := rfl
@[simp] theorem ofIdx_none (s : σ) : (ofIdx none : Act σ α) s = .ub := rfl

theorem bind_ok {x : Act σ α} {f : α → Act σ β} {s s' : σ} {a : α} (h : x s = .ok a s') : (x >>= f) s = f a s' := by
  rw [bind_def, h]
theorem bind_yaml {x : Act σ α} {f : α → Act σ β} {s s' : σ} (h : x s = .yaml s') : (x >>= f) s = .yaml s' := by
  rw [bind_def, h]
theorem bind_exc {x : Act σ α} {f : α → Act σ β} {s s' : σ} (h : x s = .exc s') : (x >>= f) s = .exc s' := by
  rw [bind_def, h]
theorem bind_ub {x : Act σ α} {f : α → Act σ β} {s : σ} (h : x s = .ub) : (x >>= f) s = .ub := by
  rw [bind_def, h]

/-- `for` over a list with an index, without early exit. -/
def forIdx (f : ℕ → α → Act σ Unit) : ℕ → List α → Act σ Unit
  | _, [] => pure ()
  | i, a :: l => f i a >>= fun _ => forIdx f (i + 1) l

end Act

/-! ## Ordered maps (`std::map`) -/

/-- `std::map<std::string, α>`: entries in key order. -/
abbrev SMap (α : Type) := List (String × α)

namespace SMap

variable {α : Type}

/-- Value stored under a key. -/
def find (m : SMap α) (k : String) : Option α := (List.find? (fun p => p.1 == k) m).map Prod.snd
/-- `m.count(k)`. -/
def has (m : SMap α) (k : String) : Bool := (find m k).isSome
/-- `m[k] = v`. -/
def put : SMap α → String → α → SMap α
  | [], k, v => [(k, v)]
  | (k', v') :: t, k, v =>
    if k' = k then (k, v) :: t else if k < k' then (k, v) :: (k', v') :: t else (k', v') :: put t k v
/-- `m.insert({k, v})`: nothing when the key exists. -/
def ins (m : SMap α) (k : String) (v : α) : SMap α := if has m k then m else put m k v
/-- Value read by `m[k]` (`d` is the default-constructed value). -/
def get (m : SMap α) (k : String) (d : α) : α := (find m k).getD d

@[simp] theorem find_nil (k : String) : find ([] : SMap α) k = none := rfl
theorem find_cons (k' : String) (v : α) (t : SMap α) (k : String) :
    find ((k', v) :: t) k = if k' = k then some v else find t k := by
  by_cases h : k' = k <;> simp [find, h]

@[simp] theorem find_put_same (m : SMap α) (k : String) (v : α) : find (put m k v) k = some v := by
  induction m with
  | nil => simp [put, find_cons]
  | cons p t ih =>
    obtain ⟨k', v'⟩ := p
    by_cases h : k' = k
    · simp [put, h, find_cons]
    · by_cases h2 : k < k'
      · simp [put, h, h2, find_cons]
      · simp [put, h, h2, find_cons, ih]

theorem find_put_ne (m : SMap α) {k k₂ : String} (v : α) (hk : k ≠ k₂) : find (put m k v) k₂ = find m k₂ := by
  induction m with
  | nil => simp [put, find_cons, hk]
  | cons p t ih =>
    obtain ⟨k', v'⟩ := p
    by_cases h : k' = k
    · subst h; simp [put, find_cons, hk]
    · by_cases h2 : k < k'
      · simp [put, h, h2, find_cons, hk]
      · simp [put, h, h2, find_cons, ih]

theorem find_put (m : SMap α) (k k₂ : String) (v : α) : find (put m k v) k₂ = if k = k₂ then some v else find m k₂ := by
  split_ifs with h
  · subst h; simp
  · exact find_put_ne m v h

theorem find_ins (m : SMap α) (k k₂ : String) (v : α) :
    find (ins m k v) k₂ = if k = k₂ then some ((find m k).getD v) else find m k₂ := by
  unfold ins has
  cases h : find m k with
  | none => simp [find_put]
  | some a =>
    split_ifs with h1 h2
    · subst h2; simp [h]
    · rfl
    · simp at h1
    · simp at h1

@[simp] theorem get_put_same (m : SMap α) (k : String) (v d : α) : get (put m k v) k d = v := by simp [get]
theorem get_put_ne (m : SMap α) {k k₂ : String} (v d : α) (h : k ≠ k₂) : get (put m k v) k₂ d = get m k₂ d := by
  simp [get, find_put_ne m v h]
theorem get_ins_default (m : SMap α) (k k₂ : String) (d : α) : get (ins m k d) k₂ d = get m k₂ d := by
  simp only [get, find_ins]
  split_ifs with h
  · subst h; simp
  · rfl

end SMap

end Thunder
