import Verif.Model.Pipeline
import Verif.Lemmas.Construct
import Verif.Lemmas.LibraryPar
import Verif.Props.RobotFile

/-!
# The symbolic vectors of a robot and their entries in its maps
-/

open scoped Classical

namespace Thunder

open Spec Act

namespace SMap

variable {α : Type}

/-- The entries are ordered by key. -/
def Sorted (m : SMap α) : Prop := m.Pairwise fun a b => a.1 < b.1

theorem lt_of_not {a b : String} (h : a ≠ b) (h' : ¬ b < a) : a < b := by
  by_contra h2
  exact h (String.le_antisymm (String.not_lt.1 h') (String.not_lt.1 h2))

theorem mem_put_key {m : SMap α} {k : String} {v : α} {p : String × α} (h : p ∈ put m k v) : p.1 = k ∨ p ∈ m := by
  rcases Robot.mem_put h with rfl | h
  · exact .inl rfl
  · exact .inr h

theorem Sorted.put {m : SMap α} (h : Sorted m) (k : String) (v : α) : Sorted (SMap.put m k v) := by
  induction m with
  | nil => exact List.pairwise_singleton _ _
  | cons p t ih =>
    obtain ⟨k', v'⟩ := p
    obtain ⟨h1, h2⟩ := List.pairwise_cons.1 h
    unfold SMap.put
    split_ifs with e1 e2
    · subst e1
      exact List.pairwise_cons.2 ⟨h1, h2⟩
    · refine List.pairwise_cons.2 ⟨fun a ha => ?_, h⟩
      rcases List.mem_cons.1 ha with rfl | ha
      · exact e2
      · exact String.lt_trans e2 (h1 a ha)
    · refine List.pairwise_cons.2 ⟨fun a ha => ?_, ih h2⟩
      rcases mem_put_key ha with e | ha
      · rw [e]; exact lt_of_not e1 e2
      · exact h1 a ha

theorem Sorted.ins {m : SMap α} (h : Sorted m) (k : String) (v : α) : Sorted (SMap.ins m k v) := by
  unfold SMap.ins
  split_ifs
  · exact h
  · exact h.put k v

theorem Sorted.insAll {m : SMap α} (h : Sorted m) (l : List (String × α)) : Sorted (Robot.insAll m l) := by
  induction l generalizing m with
  | nil => exact h
  | cons p l ih => exact ih (h.ins p.1 p.2)

theorem Sorted.nodup {m : SMap α} (h : Sorted m) : (m.map Prod.fst).Nodup := by
  rw [List.Nodup, List.pairwise_map]
  exact h.imp (fun {a b} hab (e : a.1 = b.1) => by rw [e] at hab; exact String.lt_irrefl _ hab)

theorem Sorted.find_of_mem {m : SMap α} (h : Sorted m) {p : String × α} (hp : p ∈ m) : m.find p.1 = some p.2 := by
  induction m with
  | nil => cases hp
  | cons a t ih =>
    obtain ⟨h1, h2⟩ := List.pairwise_cons.1 h
    rw [show (a :: t : SMap α) = (a.1, a.2) :: t from rfl, find_cons]
    rcases List.mem_cons.1 hp with rfl | hp
    · rw [if_pos rfl]
    · rw [if_neg fun e => String.lt_irrefl _ (e ▸ h1 p hp), ih h2 hp]

theorem mem_of_find {m : SMap α} {k : String} {v : α} (h : m.find k = some v) : (k, v) ∈ m := by
  induction m with
  | nil => cases h
  | cons a t ih =>
    rw [show (a :: t : SMap α) = (a.1, a.2) :: t from rfl, find_cons] at h
    split_ifs at h with e
    · rw [← e, ← Option.some.inj h]; exact List.mem_cons_self
    · exact List.mem_cons_of_mem _ (ih h)

end SMap

/-- The symbolic vectors. -/
inductive Key
  | q | dq | ddq | d3q | d4q | dqr | ddqr | w | x | dx | ddx | ddxr | DYN | Dl | K | D | Dm | Mm | DH | W2L | EE | grav
  deriving DecidableEq

namespace Key

/-- Key in the maps. -/
def str : Key → String
  | q => "q" | dq => "dq" | ddq => "ddq" | d3q => "d3q" | d4q => "d4q" | dqr => "dqr" | ddqr => "ddqr" | w => "w"
  | x => "x" | dx => "dx" | ddx => "ddx" | ddxr => "ddxr"
  | DYN => "par_DYN" | Dl => "par_Dl" | K => "par_K" | D => "par_D" | Dm => "par_Dm" | Mm => "par_Mm"
  | DH => "par_DHtable" | W2L => "par_world2L0" | EE => "par_Ln2EE" | grav => "par_gravity"

/-- Name of the symbols. -/
def sym : Key → String
  | DH => "DHtable" | W2L => "world2L0" | EE => "Ln2EE" | grav => "gravity" | k => k.str

def all : List Key := [q, dq, ddq, d3q, d4q, dqr, ddqr, w, x, dx, ddx, ddxr, DYN, Dl, K, D, Dm, Mm, DH, W2L, EE, grav]

theorem mem_all (k : Key) : k ∈ all := by cases k <;> decide

/-- Is it a variable of motion (as opposed to a parameter)? -/
def isVar : Key → Bool
  | q | dq | ddq | d3q | d4q | dqr | ddqr | w | x | dx | ddx | ddxr => true
  | _ => false

theorem str_inj {a b : Key} (h : a.str = b.str) : a = b := by
  have key : ∀ k : Key, all.find? (fun a => a.str == k.str) = some k := by intro k; cases k <;> decide
  have := key a
  rw [h, key b] at this
  exact (Option.some.inj this).symm

theorem sym_inj {a b : Key} (h : a.sym = b.sym) : a = b := by
  have key : ∀ k : Key, all.find? (fun a => a.sym == k.sym) = some k := by intro k; cases k <;> decide
  have := key a
  rw [h, key b] at this
  exact (Option.some.inj this).symm

noncomputable section

variable (c : Conf)

def size : Key → ℕ
  | q | dq | ddq | d3q | d4q | dqr | ddqr => c.n
  | w => 6
  | x | dx | ddx | ddxr => if c.elastic then c.ne else 0
  | DYN => c.n * 10
  | Dl => c.n * c.dlO
  | K => if c.elastic then c.ne * c.kO else 0
  | D => if c.elastic then c.ne * c.dO else 0
  | Dm => if c.elastic then c.ne * c.dmO else 0
  | Mm => if c.elastic then c.ne else 0
  | DH => c.n * 4
  | W2L => 6
  | EE => 6
  | grav => 3

/-- Is the entry symbolic?  Variables always are. -/
def flag : Key → ℕ → ℤ
  | DYN => c.fdyn | Dl => c.fdl | K => c.fK | D => c.fD | Dm => c.fDm | Mm => c.fMm | DH => c.fdh | W2L => c.fw2l | EE => c.fee | grav => c.fg
  | _ => fun _ => 1

/-- The values in the file; variables are zero. -/
def val : Key → ℕ → ℝ
  | DYN => c.dyn | Dl => c.dl | K => c.K | D => c.D | Dm => c.Dm | Mm => c.Mm | DH => c.dh | W2L => c.w2l | EE => c.ee | grav => c.g
  | _ => fun _ => 0

/-- Does `model` have the entry? -/
def here : Key → Prop
  | x | dx | ddx | ddxr | K | D | Dm | Mm => c.elastic = true
  | Dl => 0 < c.dlO
  | _ => True

/-- Does `symb` have the entry? -/
def listed : Key → Prop
  | x | dx | ddx | ddxr => c.elastic = true
  | _ => True

variable {c}

theorem size_of_not_here {k : Key} (h : ¬ k.here c) : k.size c = 0 := by
  cases k <;> simp only [here, not_true_eq_false, Bool.not_eq_true] at h <;> simp [size, h]
  omega

theorem listed_of_here {k : Key} (h : k.here c) : k.listed c := by cases k <;> first | exact h | trivial

theorem flag_var {k : Key} (h : k.isVar = true) (i : ℕ) : k.flag c i = 1 := by cases k <;> first | rfl | cases h
theorem val_var {k : Key} (h : k.isVar = true) (i : ℕ) : k.val c i = 0 := by cases k <;> first | rfl | cases h

variable (c)

/-- The vector of symbols. -/
def symMat (k : Key) : SX := SX.sym k.sym (k.size c)

/-- The vector after `init_symb_parameters`. -/
def mat (k : Key) : SX := { symMat c k with e := fun i j => if i < k.size c ∧ j = 0 ∧ k.flag c i = 0 then .const (k.val c i) else (symMat c k).e i j }

def flags (k : Key) : List ℤ := flagsL (k.size c) (k.flag c)

/-- Indices of the symbolic entries. -/
def idx (k : Key) : List ℕ := (List.range (k.size c)).filter fun i => k.flag c i ≠ 0

/-- The symbols that are left. -/
def vars (k : Key) : List Var := (k.idx c).map fun i => ⟨k.sym, i⟩

variable {c}

theorem getD_flags {k : Key} {i : ℕ} (hi : i < k.size c) : (k.flags c).getD i 0 = k.flag c i := by
  simp [flags, flagsL, List.getD_eq_getElem?_getD, hi]

theorem symIdx_flags (k : Key) : Spec.symIdx (k.flags c) (k.size c) = k.idx c := by
  unfold Spec.symIdx idx
  refine List.filter_congr fun i hi => ?_
  rw [getD_flags (List.mem_range.1 hi)]

theorem mem_idx {k : Key} {i : ℕ} : i ∈ k.idx c ↔ i < k.size c ∧ k.flag c i ≠ 0 := by simp [idx]

theorem mem_vars {k : Key} {v : Var} : v ∈ k.vars c ↔ v.name = k.sym ∧ v.idx < k.size c ∧ k.flag c v.idx ≠ 0 := by
  constructor
  · intro h
    obtain ⟨i, hi, rfl⟩ := List.mem_map.1 h
    exact ⟨rfl, mem_idx.1 hi⟩
  · rintro ⟨h1, h2⟩
    refine List.mem_map.2 ⟨v.idx, mem_idx.2 h2, ?_⟩
    rw [← h1]

theorem nodup_vars (k : Key) : (k.vars c).Nodup :=
  List.Nodup.map (fun i j h => by injection h) (List.nodup_range.filter _)

theorem mat_sym {k : Key} {i : ℕ} (hi : i < k.size c) (hf : k.flag c i ≠ 0) : (k.mat c).e i 0 = .var ⟨k.sym, i⟩ := by
  simp [mat, hf, symMat, SX.sym, hi]
theorem mat_num {k : Key} {i : ℕ} (hi : i < k.size c) (hf : k.flag c i = 0) : (k.mat c).e i 0 = .const (k.val c i) := by
  simp [mat, hf, hi]

theorem parSym (k : Key) : ParSym k.sym (k.size c) (k.mat c) (k.flags c) where
  ok := trivial
  rows := rfl
  cols := rfl
  e := by
    intro i j
    simp only [mat]
    split_ifs with h
    · exact .inr ⟨_, rfl⟩
    · simp only [symMat, SX.sym]
      split_ifs with h'
      · exact .inl ⟨rfl, h'⟩
      · exact .inr ⟨_, rfl⟩
  sym := fun i hi hf => mat_sym hi (by rwa [getD_flags hi] at hf)
  num := fun i hi hf => ⟨_, mat_num hi (by rwa [getD_flags hi] at hf)⟩

theorem selected (k : Key) : Selected (k.flags c) (k.mat c) (k.vars c) := by
  refine ⟨by simp [mat, symMat, SX.sym, flags, flagsL], ?_⟩
  have : ((List.range (k.mat c).rows).filter fun i => (k.flags c).getD i 0 ≠ 0) = k.idx c := symIdx_flags k
  rw [this, vars, List.map_map]
  refine List.map_congr_left fun i hi => ?_
  exact mat_sym (mem_idx.1 hi).1 (mem_idx.1 hi).2

/-- A variable stays a vector of symbols. -/
theorem mat_var {k : Key} (h : k.isVar = true) : k.mat c = SX.sym k.sym (k.size c) := by
  simp [mat, flag_var h, symMat]

end

end Key

end Thunder
