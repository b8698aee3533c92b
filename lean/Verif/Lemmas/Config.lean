import Verif.Model.Config
import Verif.Spec.Config
import Verif.Lemmas.RobotFile

/-!
# Lemmas on the constructor
-/

namespace Thunder

open Spec Act

namespace Robot

variable {σ α β : Type}

/-- Hoare triple: from a state with `P`, a normal end satisfies `Q`, a YAML exception leaves a state with `R`, undefined behaviour occurs only if
`u`. -/
def Tri (u : Prop) (R : σ → Prop) (P : σ → Prop) (x : Act σ α) (Q : α → σ → Prop) : Prop := ∀ s, P s → match x s with
  | .ok a s' => Q a s'
  | .yaml s' => R s'
  | .exc _ => True
  | .ub => u

section rules
variable {u : Prop} {R P : σ → Prop}

theorem Tri.bind {x : Act σ α} {f : α → Act σ β} {Q : α → σ → Prop} {S : β → σ → Prop} (hx : Tri u R P x Q) (hf : ∀ a, Tri u R (Q a) (f a) S) :
    Tri u R P (x >>= f) S := by
  intro s hs
  have h := hx s hs
  rw [bind_def]
  cases e : x s with
  | ok a s' => rw [e] at h; exact hf a s' h
  | yaml s' => rw [e] at h; exact h
  | exc s' => trivial
  | ub => rw [e] at h; exact h

theorem Tri.pure {a : α} {Q : α → σ → Prop} (h : ∀ s, P s → Q a s) : Tri u R P (Pure.pure a) Q := fun s hs => h s hs
theorem Tri.read {f : σ → Act σ β} {S : β → σ → Prop} (h : ∀ s, P s → Tri u R (fun t => t = s) (f s) S) : Tri u R P (Act.read >>= f) S :=
  fun s hs => h s hs s rfl
theorem Tri.modify {f : σ → σ} {Q : Unit → σ → Prop} (h : ∀ s, P s → Q () (f s)) : Tri u R P (Act.modify f) Q := fun s hs => h s hs
theorem Tri.ofYaml {o : Option α} {Q : α → σ → Prop} (h : ∀ s, P s → ∀ a, o = some a → Q a s) (hr : ∀ s, P s → R s) :
    Tri u R P (Act.ofYaml o) Q := by
  intro s hs
  cases o with
  | none => exact hr s hs
  | some a => exact h s hs a rfl
theorem Tri.ofExc {o : Option α} {Q : α → σ → Prop} (h : ∀ s, P s → ∀ a, o = some a → Q a s) : Tri u R P (Act.ofExc o) Q := by
  intro s hs
  cases o with
  | none => trivial
  | some a => exact h s hs a rfl
theorem Tri.ofIdx {o : Option α} {Q : α → σ → Prop} (h : ∀ s, P s → ∀ a, o = some a → Q a s) (hu : ∀ s, P s → o = none → u) :
    Tri u R P (Act.ofIdx o) Q := by
  intro s hs
  cases o with
  | none => exact hu s hs rfl
  | some a => exact h s hs a rfl
theorem Tri.ite {c : Prop} [Decidable c] {x y : Act σ α} {Q : α → σ → Prop} (hx : c → Tri u R P x Q) (hy : ¬ c → Tri u R P y Q) :
    Tri u R P (if c then x else y) Q := by
  split_ifs with h
  · exact hx h
  · exact hy h
theorem Tri.mono {x : Act σ α} {Q Q' : α → σ → Prop} {P' : σ → Prop} (h : Tri u R P x Q) (hp : ∀ s, P' s → P s) (hq : ∀ a s, Q a s → Q' a s) :
    Tri u R P' x Q' := by
  intro s hs
  have h1 := h s (hp s hs)
  cases e : x s with
  | ok a s' => rw [e] at h1; exact hq _ _ h1
  | yaml s' => rw [e] at h1; exact h1
  | exc s' => trivial
  | ub => rw [e] at h1; exact h1
end rules

/-! ## Lookups -/

theorem child_of_lookup {l : List (Option String × Yaml)} {k : String} {z : Yaml} (h : Yaml.lookup k l = some z) : Child (.map l) k z := by
  unfold Yaml.lookup at h
  rw [Option.map_eq_some_iff] at h
  obtain ⟨p, hp, rfl⟩ := h
  rw [List.find?_eq_some_iff_append] at hp
  obtain ⟨h1, l₁, l₂, rfl, h2⟩ := hp
  obtain ⟨k', z⟩ := p
  have hk : k' = some k := by simpa using h1
  subst hk
  exact ⟨l₁, l₂, rfl, fun e he hk => by simpa [hk] using h2 e he⟩

theorem getM_inv {y z : Yaml} {k : String} (h : y.getM k = some z) : Child y k z ∨ z = .undef := by
  cases y with
  | zombie => cases h
  | scalar s => cases h
  | map l =>
    simp only [Yaml.getM, Option.some.injEq] at h
    cases hl : Yaml.lookup k l with
    | none => rw [hl] at h; exact .inr h.symm
    | some w => rw [hl] at h; cases h; exact .inl (child_of_lookup hl)
  | undef => cases h; exact .inr rfl
  | null => cases h; exact .inr rfl
  | seq l => cases h; exact .inr rfl

theorem getC_inv {y z : Yaml} {k : String} (h : y.getC k = some z) : Child y k z ∨ z = .zombie := by
  cases y with
  | zombie => cases h
  | scalar s => cases h
  | map l =>
    simp only [Yaml.getC, Option.some.injEq] at h
    cases hl : Yaml.lookup k l with
    | none => rw [hl] at h; exact .inr h.symm
    | some w => rw [hl] at h; cases h; exact .inl (child_of_lookup hl)
  | undef => cases h; exact .inr rfl
  | null => cases h; exact .inr rfl
  | seq l => cases h; exact .inr rfl

theorem entry_of_getM {f : Yaml → Option α} (hf : f .undef = none) {y : Yaml} {k : String} {a : α} (h : (y.getM k).bind f = some a) :
    Entry f y k a := by
  rw [Option.bind_eq_some_iff] at h
  obtain ⟨z, hz, ha⟩ := h
  rcases getM_inv hz with hc | rfl
  · exact ⟨z, hc, ha⟩
  · rw [hf] at ha; cases ha

theorem getM_entry {f : Yaml → Option α} {y : Yaml} {k : String} {a : α} (h : Entry f y k a) : (y.getM k).bind f = some a := by
  obtain ⟨z, hc, ha⟩ := h
  rw [getM_child hc]
  exact ha

theorem child_unique {y z z' : Yaml} {k : String} (h : Child y k z) (h' : Child y k z') : z = z' := by
  have := (getM_child h).symm.trans (getM_child h')
  exact Option.some.inj this

theorem entry_unique {f : Yaml → Option α} {y : Yaml} {k : String} {a b : α} (h : Entry f y k a) (h' : Entry f y k b) : a = b := by
  have := (getM_entry h).symm.trans (getM_entry h')
  exact Option.some.inj this

/-! ## Sizes -/

section safe
variable {y : Yaml} {m : ℤ}

/-- `numJoints` has been read. -/
def Known (s : Part) : Prop := s.nj.isSome = true

/-- State after `parseBasic`. -/
structure Stage (y : Yaml) (m : ℤ) (s : Part) : Prop where
  nj : s.nj = some m
  types : Entry (Yaml.asVec Yaml.asS) y "type_joints" s.types
  dl : s.dlI = 0 ∨ Entry Yaml.asI y "Dl_order" s.dlI

theorem Stage.known {s : Part} (h : Stage y m s) : Known s := by
  unfold Known
  rw [h.nj]
  rfl

theorem tri_at1 {f : Yaml → Option α} (hf : f .undef = none) {z : Yaml} {k : String} {u : Prop} {R P : Part → Prop} {Q : α → Part → Prop}
    (h : ∀ s, P s → ∀ a, Entry f z k a → Q a s) (hr : ∀ s, P s → R s) : Tri u R P (at1 f z k) Q :=
  Tri.ofYaml (fun s hs a ha => h s hs a (entry_of_getM hf ha)) hr

theorem tri_opt {f : Yaml → Option α} {d : α} {z : Yaml} {u : Prop} {R P : Part → Prop} {Q : α → Part → Prop}
    (h : ∀ s, P s → ∀ a, f z = some a → Q a s) (hd : ∀ s, P s → Q d s) (hr : ∀ s, P s → R s) : Tri u R P (opt f d z) Q :=
  Tri.ite (fun _ => Tri.ofYaml h hr) fun _ => Tri.pure hd

theorem parseBasic_safe (h : Entry Yaml.asI y "num_joints" m) :
    Tri False Known (fun _ => True) (parseBasic y) (fun nj s => nj = m ∧ Stage y m s) := by
  unfold parseBasic
  refine Tri.bind (Q := fun a _ => a = m) ?_ fun nj => ?_
  · intro s _
    unfold at1
    rw [getM_entry h]
    rfl
  refine Tri.bind (Q := fun _ s => nj = m ∧ s.nj = some m) (Tri.modify fun s hs => ?_) fun _ => ?_
  · subst hs; exact ⟨rfl, rfl⟩
  have hK : ∀ s : Part, nj = m ∧ s.nj = some m → Known s := fun s hs => by unfold Known; rw [hs.2]; rfl
  refine Tri.bind (Q := fun ts s => (nj = m ∧ s.nj = some m) ∧ Entry (Yaml.asVec Yaml.asS) y "type_joints" ts)
    (tri_at1 rfl (fun s hs a ha => ⟨hs, ha⟩) hK) fun ts => ?_
  refine Tri.bind (Q := fun _ s => (nj = m ∧ s.nj = some m) ∧ Entry (Yaml.asVec Yaml.asS) y "type_joints" s.types)
    (Tri.modify fun s hs => hs) fun _ => ?_
  refine Tri.bind (Q := fun dl s => ((nj = m ∧ s.nj = some m) ∧ Entry (Yaml.asVec Yaml.asS) y "type_joints" s.types) ∧ y.getM "Dl_order" = some dl)
    (Tri.ofYaml (fun s hs a ha => ⟨hs, ha⟩) fun s hs => hK s hs.1) fun dl => ?_
  refine Tri.bind (Q := fun (dlI : ℤ) (s : Part) => ((nj = m ∧ s.nj = some m) ∧ Entry (Yaml.asVec Yaml.asS) y "type_joints" s.types) ∧
    (dlI = 0 ∨ Entry Yaml.asI y "Dl_order" dlI))
    (tri_opt (fun s hs a ha => ⟨hs.1, .inr (entry_of_getM rfl (by rw [hs.2]; exact ha))⟩) (fun s hs => ⟨hs.1, .inl rfl⟩) fun s hs => hK s hs.1.1)
    fun dlI => ?_
  refine Tri.bind (Q := fun _ s => nj = m ∧ Stage y m s) (Tri.modify fun s hs => ⟨hs.1.1.1, hs.1.1.2, hs.1.2, hs.2⟩) fun _ => ?_
  have hK2 : ∀ s : Part, nj = m ∧ Stage y m s → Known s := fun s hs => hs.2.known
  refine Tri.bind (Q := fun _ s => nj = m ∧ Stage y m s) (Tri.ofYaml (fun s hs _ _ => hs) hK2) fun em => ?_
  refine Tri.bind (Q := fun _ s => nj = m ∧ Stage y m s) (tri_opt (fun s hs _ _ => hs) (fun s hs => hs) hK2)
    fun on => ?_
  refine Tri.ite (fun _ => ?_) fun _ => Tri.pure fun s hs => hs
  refine Tri.bind (Q := fun _ s => nj = m ∧ Stage y m s) (Tri.modify fun s hs => ⟨hs.1, hs.2.1, hs.2.2, hs.2.3⟩) fun _ => ?_
  refine Tri.bind (Q := fun _ s => nj = m ∧ Stage y m s) (Tri.ofYaml (fun s hs _ _ => hs) hK2) fun el => ?_
  refine Tri.bind (Q := fun _ s => nj = m ∧ Stage y m s) (tri_at1 rfl (fun s hs _ _ => hs) hK2) fun k => ?_
  refine Tri.bind (Q := fun _ s => nj = m ∧ Stage y m s) (Tri.modify fun s hs => ⟨hs.1, hs.2.1, hs.2.2, hs.2.3⟩) fun _ => ?_
  refine Tri.bind (Q := fun _ s => nj = m ∧ Stage y m s) (tri_at1 rfl (fun s hs _ _ => hs) hK2) fun d => ?_
  refine Tri.bind (Q := fun _ s => nj = m ∧ Stage y m s) (Tri.modify fun s hs => ⟨hs.1, hs.2.1, hs.2.2, hs.2.3⟩) fun _ => ?_
  refine Tri.bind (Q := fun _ s => nj = m ∧ Stage y m s) (tri_at1 rfl (fun s hs _ _ => hs) hK2) fun dm => ?_
  refine Tri.bind (Q := fun _ s => nj = m ∧ Stage y m s) (Tri.modify fun s hs => ⟨hs.1, hs.2.1, hs.2.2, hs.2.3⟩) fun _ => ?_
  exact Tri.pure fun s hs => hs

theorem classify_safe (h : ∀ ts, Entry (Yaml.asVec Yaml.asS) y "type_joints" ts → m ≤ ts.length) :
    Tri False Known (Stage y m) (classify m) (fun _ s => Stage y m s ∧ 0 ≤ m) := by
  unfold classify
  refine Tri.bind (Q := fun _ s => Stage y m s) (Tri.modify fun s hs => ⟨hs.1, hs.2, hs.3⟩) fun _ => ?_
  refine Tri.bind (Q := fun _ s => Stage y m s ∧ 0 ≤ m) (Tri.ofExc fun s hs _ e => ⟨hs, ?_⟩) fun _ => ?_
  · by_contra hm
    rw [if_neg hm] at e
    cases e
  refine Tri.read fun t ht => ?_
  refine Tri.bind (Q := fun _ s => Stage y m s ∧ 0 ≤ m) (Tri.ofIdx (fun s hs _ _ => hs ▸ ht) fun s hs e => ?_) fun _ => ?_
  · have h1 := h _ ht.1.types
    rw [if_pos (by have := ht.2; omega)] at e
    cases e
  exact Tri.modify fun s hs => ⟨⟨hs.1.1, hs.1.2, hs.1.3⟩, hs.2⟩

/-- A list of numbers read from the section `s`, key `k`, or the default. -/
theorem parseNums_safe (hs : SafeConfig y m) : Tri False Known (Stage y m) (parseNums y) (fun v s => Stage y m s ∧
    3 ≤ v.g.length ∧ 3 ≤ v.btr.length ∧ 3 ≤ v.bypr.length ∧ 3 ≤ v.etr.length ∧ 3 ≤ v.eypr.length) := by
  have hK : ∀ s : Part, Stage y m s → Known s := fun s h => h.known
  have get : ∀ {c : Prop} (k : String) {β : Type} (f : Yaml → Act Part β) (S : β → Part → Prop),
      (∀ z, y.getM k = some z → Tri False Known (fun s => Stage y m s ∧ c) (f z) S) →
      Tri False Known (fun s => Stage y m s ∧ c) (Act.ofYaml (y.getM k) >>= f) S := by
    intro c k β f S h
    cases e : y.getM k with
    | none => intro s hs; exact hK s hs.1
    | some z =>
      refine Tri.bind (Q := fun w s => w = z ∧ Stage y m s ∧ c) (fun s hs => ⟨rfl, hs⟩) fun w s hs => ?_
      obtain ⟨rfl, hs⟩ := hs
      exact h w e s hs
  have off : ∀ {s' k : String} {z : Yaml}, s' ∈ ["Base_to_L0", "Ln_to_EE"] → k ∈ ["tr", "ypr"] → y.getM s' = some z →
      ∀ xs, Entry (Yaml.asVec Yaml.asD) z k xs → 3 ≤ xs.length := by
    intro s' k z h1 h2 hz xs hx
    rcases getM_inv hz with hc | rfl
    · exact hs.offsets s' h1 k h2 z xs hc hx
    · obtain ⟨w, ⟨_, _, hw, _⟩, _⟩ := hx; cases hw
  unfold parseNums
  refine Tri.mono (P := fun s => Stage y m s ∧ True) (Q := fun v s => Stage y m s ∧
    3 ≤ v.g.length ∧ 3 ≤ v.btr.length ∧ 3 ≤ v.bypr.length ∧ 3 ≤ v.etr.length ∧ 3 ≤ v.eypr.length) ?_ (fun s hs => ⟨hs, trivial⟩) fun _ _ h => h
  refine get _ _ _ fun kin _ => ?_
  refine Tri.bind (Q := fun _ s => Stage y m s ∧ True) (tri_at1 rfl (fun s hs _ _ => hs) fun s hs => hK s hs.1) fun dh => ?_
  refine get _ _ _ fun gr hgr => ?_
  refine Tri.bind (Q := fun g s => Stage y m s ∧ 3 ≤ g.length) (tri_opt (fun s hs' a ha => ⟨hs'.1, ?_⟩) (fun s hs => ⟨hs.1, by simp⟩)
    fun s hs => hK s hs.1) fun g => ?_
  · replace ha := entry_of_getM (f := Yaml.asVec Yaml.asD) rfl ha
    rcases getM_inv hgr with hc | rfl
    · exact hs.gravity gr a hc ha
    · obtain ⟨w, ⟨_, _, hw, _⟩, _⟩ := ha; cases hw
  refine get _ _ _ fun fb hfb => ?_
  refine Tri.bind (Q := fun a s => Stage y m s ∧ 3 ≤ g.length ∧ 3 ≤ a.length)
    (tri_at1 rfl (fun s hs a ha => ⟨hs.1, hs.2, off (by simp) (by simp) hfb a ha⟩) fun s hs => hK s hs.1) fun btr => ?_
  refine Tri.bind (Q := fun a s => Stage y m s ∧ 3 ≤ g.length ∧ 3 ≤ btr.length ∧ 3 ≤ a.length)
    (tri_at1 rfl (fun s hs a ha => ⟨hs.1, hs.2.1, hs.2.2, off (by simp) (by simp) hfb a ha⟩) fun s hs => hK s hs.1) fun bypr => ?_
  refine get _ _ _ fun fe hfe => ?_
  refine Tri.bind (Q := fun a s => Stage y m s ∧ 3 ≤ g.length ∧ 3 ≤ btr.length ∧ 3 ≤ bypr.length ∧ 3 ≤ a.length)
    (tri_at1 rfl (fun s hs a ha => ⟨hs.1, hs.2.1, hs.2.2.1, hs.2.2.2, off (by simp) (by simp) hfe a ha⟩) fun s hs => hK s hs.1) fun etr => ?_
  refine Tri.bind (Q := fun a s => Stage y m s ∧ 3 ≤ g.length ∧ 3 ≤ btr.length ∧ 3 ≤ bypr.length ∧ 3 ≤ etr.length ∧ 3 ≤ a.length)
    (tri_at1 rfl (fun s hs a ha => ⟨hs.1, hs.2.1, hs.2.2.1, hs.2.2.2.1, hs.2.2.2.2, off (by simp) (by simp) hfe a ha⟩) fun s hs => hK s hs.1)
    fun eypr => ?_
  exact Tri.pure fun s hs => hs

theorem length_copyAt {acc xs acc' : List ℤ} {pos : ℕ} (h : copyAt acc pos xs = some acc') : acc'.length = acc.length := by
  unfold copyAt at h
  split_ifs at h with hl
  cases h
  simp
  omega

/-- The loop over the links stays inside the vector when there are at most `N` links with at most `w` flags each. -/
theorem symbLinks_safe {sec : String} {w N : ℕ} {P : Part → Prop} (hP : ∀ s, P s → Known s) :
    ∀ (l : List (Option String × Yaml)) (i : ℕ) (acc : List ℤ), i + l.length ≤ N → acc.length = w * N → FlagsFit l sec w →
      Tri False Known P (symbLinks sec w i acc l) (fun _ s => P s) := by
  intro l
  induction l with
  | nil => intro i acc _ _ _; exact Tri.pure fun s hs => hs
  | cons e l ih =>
    intro i acc hi ha hf
    obtain ⟨key, nd⟩ := e
    unfold symbLinks
    have hw : i * w + w ≤ w * N := by
      have : (i + 1) * w ≤ N * w := Nat.mul_le_mul_right w (by simp at hi; omega)
      rw [Nat.mul_comm w N]
      linarith
    refine Tri.bind (Q := fun s st => P st ∧ nd.getC sec = some s) (Tri.ofYaml (fun s hs a ha => ⟨hs, ha⟩) hP) fun s => ?_
    refine Tri.bind (Q := fun fl st => P st ∧ nd.getC sec = some s ∧ s.getM "symb" = some fl)
      (Tri.ofYaml (fun st hs a ha => ⟨hs.1, hs.2, ha⟩) fun st hs => hP st hs.1) fun fl => ?_
    refine Tri.bind (Q := fun (xs : List ℤ) (st : Part) => P st ∧ xs.length ≤ w) (tri_opt (fun st hs a ha => ⟨hs.1, ?_⟩) (fun st hs => ⟨hs.1, by simp⟩)
      fun st hs => hP st hs.1) fun xs => ?_
    · have he : Entry (Yaml.asVec Yaml.asI) s "symb" a := entry_of_getM rfl (by rw [hs.2.2]; exact ha)
      rcases getC_inv hs.2.1 with hc | rfl
      · exact hf _ List.mem_cons_self s a hc he
      · obtain ⟨_, ⟨_, _, hw, _⟩, _⟩ := he; cases hw
    refine Tri.bind (Q := fun acc' st => P st ∧ acc'.length = w * N) (Tri.ofIdx (fun st hs a e => ⟨hs.1, (length_copyAt e).trans ha⟩) fun st hs e => ?_)
      fun acc' => ?_
    · unfold copyAt at e
      rw [if_pos (by have := hs.2; omega)] at e
      cases e
    intro st hs
    exact ih (i + 1) acc' (by simp at hi; omega) hs.2 (fun e he => hf e (List.mem_cons_of_mem _ he)) st hs.1

theorem symbVector_safe {nd : Yaml} {key : String} {order : ℤ} {P : Part → Prop} (hP : ∀ s, P s → Known s) :
    Tri False Known P (symbVector nd key order) (fun _ s => P s) := by
  unfold symbVector
  refine Tri.bind (Q := fun _ s => P s) (Tri.ofYaml (fun s hs _ _ => hs) hP) fun v => ?_
  refine Tri.ite (fun _ => ?_) fun _ => Tri.ofExc fun s hs _ _ => hs
  exact Tri.bind (Q := fun _ s => P s) (Tri.ofYaml (fun s hs _ _ => hs) hP) fun xs => Tri.ofExc fun s hs _ _ => hs

theorem symbJoints_safe {ne : ℕ} {kI dI dmI : ℤ} {P : Part → Prop} (hP : ∀ s, P s → Known s) :
    ∀ (l : List (Option String × Yaml)) (i : ℕ) (acc : Ela), Tri False Known P (symbJoints ne kI dI dmI i acc l) (fun _ s => P s) := by
  intro l
  induction l with
  | nil => intro i acc; exact Tri.pure fun s hs => hs
  | cons e l ih =>
    intro i acc
    obtain ⟨key, nd⟩ := e
    unfold symbJoints
    refine Tri.ite (fun _ => Tri.pure fun s hs => hs) fun _ => ?_
    refine Tri.bind (symbVector_safe hP) fun _ => ?_
    refine Tri.bind (symbVector_safe hP) fun _ => ?_
    refine Tri.bind (symbVector_safe hP) fun _ => ?_
    refine Tri.bind (Q := fun _ s => P s) (Tri.ofYaml (fun s hs _ _ => hs) hP) fun mm => ?_
    refine Tri.bind (Q := fun _ s => P s) (tri_opt (fun s hs _ _ => hs) (fun s hs => hs) hP) fun _ => ?_
    exact ih _ _

/-- The iteration of a section that is not a map or a sequence is empty; that of a sequence meets an invalid node first. -/
theorem symbLinks_seq {sec : String} {w : ℕ} {P : Part → Prop} (hP : ∀ s, P s → Known s) (l : List Yaml) (i : ℕ) (acc : List ℤ) :
    Tri False Known P (symbLinks sec w i acc (Yaml.seq l).items) (fun _ s => P s) := by
  cases l with
  | nil => exact Tri.pure fun s hs => hs
  | cons a l =>
    intro s hs
    exact hP s hs

theorem parseDynSymb_safe (hs : SafeConfig y m) (hm : 0 ≤ m) : Tri False Known (Stage y m) (parseDynSymb y m) (fun _ s => Stage y m s) := by
  have hK : ∀ s : Part, Stage y m s → Known s := fun s h => h.known
  unfold parseDynSymb
  refine Tri.bind (Q := fun d s => Stage y m s ∧ y.getM "dynamics" = some d) (Tri.ofYaml (fun s h a ha => ⟨h, ha⟩) hK) fun dyn => ?_
  intro st hst
  obtain ⟨hst, hd⟩ := hst
  revert st
  have loop : ∀ (sec : String) (w : ℕ), (∀ l, Child y "dynamics" (.map l) → FlagsFit l sec w) → ∀ (acc : List ℤ), acc.length = w * m.toNat →
      Tri False Known (Stage y m) (symbLinks sec w 0 acc dyn.items) (fun _ s => Stage y m s) := by
    intro sec w hf acc ha
    have empty : ∀ z : Yaml, z.items = [] → Tri False Known (Stage y m) (symbLinks sec w 0 acc z.items) (fun _ s => Stage y m s) := by
      intro z hz
      rw [hz]
      exact Tri.pure fun s hs => hs
    cases dyn with
    | zombie => exact empty _ rfl
    | undef => exact empty _ rfl
    | null => exact empty _ rfl
    | scalar x => exact empty _ rfl
    | seq l => exact symbLinks_seq hK l 0 acc
    | map l =>
      rcases getM_inv hd with hc | hc
      · have := hs.links l hc
        exact symbLinks_safe hK l 0 acc (N := m.toNat) (by omega) ha (hf l hc)
      · cases hc
  suffices h : Tri False Known (Stage y m) (do
      let fDYN ← symbLinks "inertial" 10 0 (List.replicate (10 * m.toNat) 0) dyn.items
      let p ← read
      let fDl ← parseDlSymb dyn m p.dlI
      let ela ← parseElaSymb y p
      pure (fDYN, fDl, ela)) (fun _ s => Stage y m s) from fun st hst => h st hst
  refine Tri.bind (loop "inertial" 10 hs.inertial _ (by simp)) fun fDYN => ?_
  refine Tri.read fun p hp => ?_
  refine Tri.bind (Q := fun _ s => Stage y m s) ?_ fun fDl => ?_
  · refine Tri.mono (P := Stage y m) (Q := fun _ s => Stage y m s) (Tri.ite (fun h0 => loop "friction" _ (fun l hl => ?_) _ ?_) fun _ =>
      Tri.pure fun s hs => hs) (fun s h => h ▸ hp) fun _ _ h => h
    · rcases hp.dl with h | h
      · omega
      · exact hs.friction l _ hl h h0
    · rw [List.length_replicate, Int.toNat_mul (by omega) hm]
  refine Tri.bind (Q := fun _ s => Stage y m s) (Tri.ite (fun _ => ?_) fun _ => Tri.pure fun s hs => hs) fun _ => Tri.pure fun s hs => hs
  refine Tri.bind (Q := fun _ s => Stage y m s) (Tri.ofYaml (fun s hs _ _ => hs) hK) fun _ => ?_
  refine Tri.bind (Q := fun _ s => Stage y m s) (Tri.ofYaml (fun s hs _ _ => hs) hK) fun _ => ?_
  exact symbJoints_safe hK _ _ _

theorem putSymb_safe (k : String) (v : List ℤ) : Tri False Known (Stage y m) (putSymb k v) (fun _ s => Stage y m s) :=
  Tri.modify fun _ hs => ⟨hs.1, hs.2, hs.3⟩

theorem symbOpt_safe (nd : Yaml) (k : String) (n : ℕ) : Tri False Known (Stage y m) (symbOpt nd k n) (fun _ s => Stage y m s) := by
  have hK : ∀ s : Part, Stage y m s → Known s := fun s h => h.known
  unfold symbOpt
  refine Tri.bind (Q := fun _ s => Stage y m s) (Tri.ofYaml (fun s hs _ _ => hs) hK) fun _ => ?_
  refine Tri.ite (fun _ => ?_) fun _ => putSymb_safe _ _
  exact Tri.bind (Q := fun _ s => Stage y m s) (Tri.ofYaml (fun s hs _ _ => hs) hK) fun _ => putSymb_safe _ _

theorem parseKinSymb_safe (n : ℕ) : Tri False Known (Stage y m) (parseKinSymb y n) (fun _ s => Stage y m s) := by
  have hK : ∀ s : Part, Stage y m s → Known s := fun s h => h.known
  unfold parseKinSymb
  refine Tri.bind (Q := fun _ s => Stage y m s) (Tri.ofYaml (fun s hs _ _ => hs) hK) fun _ => ?_
  refine Tri.bind (symbOpt_safe _ _ _) fun _ => ?_
  refine Tri.bind (Q := fun _ s => Stage y m s) (Tri.ofYaml (fun s hs _ _ => hs) hK) fun _ => ?_
  refine Tri.bind (symbOpt_safe _ _ _) fun _ => ?_
  refine Tri.bind (Q := fun _ s => Stage y m s) (Tri.ofYaml (fun s hs _ _ => hs) hK) fun _ => ?_
  refine Tri.bind (symbOpt_safe _ _ _) fun _ => ?_
  refine Tri.bind (Q := fun _ s => Stage y m s) (Tri.ofYaml (fun s hs _ _ => hs) hK) fun _ => ?_
  exact symbOpt_safe _ _ _

theorem first3_safe {l : List Num} (h : 3 ≤ l.length) : Tri False Known (Stage y m) (Act.ofIdx (first3 l)) (fun _ s => Stage y m s) :=
  Tri.ofIdx (fun s hs _ _ => hs) fun s hs e => by
    unfold first3 at e
    rw [if_pos h] at e
    cases e

theorem parse_safe (hs : SafeConfig y m) : Tri False Known (fun _ => True) (parse y) (fun _ s => Known s) := by
  unfold parse
  refine Tri.bind (parseBasic_safe hs.joints) fun nj => ?_
  intro st hst
  obtain ⟨rfl, hst⟩ := hst
  revert st
  refine Tri.bind (classify_safe hs.types) fun _ => ?_
  refine Tri.bind (Q := fun v s => (Stage y nj s ∧ 3 ≤ v.g.length ∧ 3 ≤ v.btr.length ∧ 3 ≤ v.bypr.length ∧ 3 ≤ v.etr.length ∧ 3 ≤ v.eypr.length) ∧ 0 ≤ nj)
    ?_ fun v => ?_
  · intro s h
    have h1 := parseNums_safe hs s h.1
    revert h1
    cases parseNums y s with
    | ok a s' => intro h1; exact ⟨h1, h.2⟩
    | yaml s' => intro h1; exact h1
    | exc s' => intro _; trivial
    | ub => intro h1; exact h1
  intro st hst
  obtain ⟨⟨hst, h1, h2, h3, h4, h5⟩, hm⟩ := hst
  revert st
  refine Tri.bind (parseDynSymb_safe hs hm) fun p => ?_
  obtain ⟨fDYN, fDl, ela⟩ := p
  refine Tri.bind (putSymb_safe _ _) fun _ => ?_
  refine Tri.bind (putSymb_safe _ _) fun _ => ?_
  refine Tri.bind (putSymb_safe _ _) fun _ => ?_
  refine Tri.bind (putSymb_safe _ _) fun _ => ?_
  refine Tri.bind (putSymb_safe _ _) fun _ => ?_
  refine Tri.bind (putSymb_safe _ _) fun _ => ?_
  refine Tri.bind (parseKinSymb_safe _) fun _ => ?_
  unfold parseFinal
  refine Tri.read fun t ht => ?_
  refine Tri.bind (Q := fun _ s => Stage y nj s) (Tri.ofExc fun s hs _ _ => hs ▸ ht) fun _ => ?_
  refine Tri.bind (Q := fun _ s => Stage y nj s) (Tri.modify fun s hs => ⟨hs.1, hs.2, hs.3⟩) fun _ => ?_
  refine Tri.bind (first3_safe h2) fun _ => ?_
  refine Tri.bind (first3_safe h3) fun _ => ?_
  refine Tri.bind (first3_safe h4) fun _ => ?_
  refine Tri.bind (first3_safe h5) fun _ => ?_
  refine Tri.bind (first3_safe h1) fun _ => ?_
  exact Tri.modify fun s hs => hs.known

end safe

end Robot

end Thunder
