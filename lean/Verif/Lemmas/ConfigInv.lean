import Verif.Lemmas.Construct
import Verif.Lemmas.RobotInv

/-!
# Invariants of `parse_config`
-/

namespace Thunder

open Spec Act

namespace Robot

/-- Names of the parameters whose flags `parse_config` stores. -/
def symbKeys : List String :=
  ["par_DYN", "par_Dl", "par_K", "par_D", "par_Dm", "par_Mm", "par_DHtable", "par_world2L0", "par_Ln2EE", "par_gravity"]
/-- Names of the arguments `parse_config` stores. -/
def argKeys : List String := ["par_DHtable", "par_world2L0", "par_Ln2EE", "par_gravity"]

/-- `parse_config` stores only parameters. -/
structure OnlyPar (s : Part) : Prop where
  symb : ∀ p ∈ s.symb, p.1 ∈ symbKeys
  args : ∀ p ∈ s.args, p.1 ∈ argKeys

/-- `I` holds at every end of `x` that is not an error. -/
def Inv {α : Type} (I : Part → Prop) (x : Act Part α) : Prop := Tri True I I x fun _ => I

section rules
variable {α β : Type} {I : Part → Prop}

theorem Inv.bind {x : Act Part α} {f : α → Act Part β} (hx : Inv I x) (hf : ∀ a, Inv I (f a)) : Inv I (x >>= f) := Tri.bind hx hf
theorem Inv.pure (a : α) : Inv I (Pure.pure a) := Tri.pure fun _ h => h
theorem Inv.ofYaml (o : Option α) : Inv I (Act.ofYaml o) := Tri.ofYaml (fun _ h _ _ => h) fun _ h => h
theorem Inv.ofExc (o : Option α) : Inv I (Act.ofExc o) := Tri.ofExc fun _ h _ _ => h
theorem Inv.ofIdx (o : Option α) : Inv I (Act.ofIdx o) := Tri.ofIdx (fun _ h _ _ => h) fun _ _ _ => trivial
theorem Inv.modify {f : Part → Part} (h : ∀ s, I s → I (f s)) : Inv I (Act.modify f) := Tri.modify h
theorem Inv.read {f : Part → Act Part β} (h : ∀ s, Inv I (f s)) : Inv I (Act.read >>= f) := fun s hs => h s s hs
theorem Inv.ite {c : Prop} [Decidable c] {x y : Act Part α} (hx : Inv I x) (hy : Inv I y) : Inv I (if c then x else y) :=
  Tri.ite (fun _ => hx) fun _ => hy
end rules

section inv
variable {I : Part → Prop}

theorem at1_inv {α : Type} (f : Yaml → Option α) (y : Yaml) (k : String) : Inv I (at1 f y k) := Inv.ofYaml _
theorem opt_inv {α : Type} (f : Yaml → Option α) (d : α) (y : Yaml) : Inv I (opt f d y) := Inv.ite (Inv.ofYaml _) (Inv.pure _)

theorem parseBasic_inv (h : ∀ s s' : Part, s'.symb = s.symb → s'.args = s.args → I s → I s') (y : Yaml) : Inv I (parseBasic y) := by
  unfold parseBasic
  refine (at1_inv _ _ _).bind fun _ => (Inv.modify (by intro s; exact h _ _ rfl rfl)).bind fun _ => (at1_inv _ _ _).bind fun _ =>
    (Inv.modify (by intro s; exact h _ _ rfl rfl)).bind fun _ => (Inv.ofYaml _).bind fun _ => (opt_inv _ _ _).bind fun _ =>
    (Inv.modify (by intro s; exact h _ _ rfl rfl)).bind fun _ => (Inv.ofYaml _).bind fun _ => (opt_inv _ _ _).bind fun _ => Inv.ite ?_ (Inv.pure _)
  exact (Inv.modify (by intro s; exact h _ _ rfl rfl)).bind fun _ => (Inv.ofYaml _).bind fun _ => (at1_inv _ _ _).bind fun _ =>
    (Inv.modify (by intro s; exact h _ _ rfl rfl)).bind fun _ => (at1_inv _ _ _).bind fun _ => (Inv.modify (by intro s; exact h _ _ rfl rfl)).bind fun _ =>
    (at1_inv _ _ _).bind fun _ => (Inv.modify (by intro s; exact h _ _ rfl rfl)).bind fun _ => Inv.pure _

theorem classify_inv (h : ∀ s s' : Part, s'.symb = s.symb → s'.args = s.args → I s → I s') (nj : ℤ) : Inv I (classify nj) := by
  unfold classify
  exact (Inv.modify (by intro s; exact h _ _ rfl rfl)).bind fun _ => (Inv.ofExc _).bind fun _ => Inv.read fun s => (Inv.ofIdx _).bind fun _ =>
    Inv.modify (by intro s; exact h _ _ rfl rfl)

theorem symbLinks_inv (sec : String) (w : ℕ) (l : List (Option String × Yaml)) : ∀ i acc, Inv I (symbLinks sec w i acc l) := by
  induction l with
  | nil => intro i acc; exact Inv.pure _
  | cons e l ih =>
    intro i acc
    exact (Inv.ofYaml _).bind fun _ => (Inv.ofYaml _).bind fun _ => (opt_inv _ _ _).bind fun _ => (Inv.ofIdx _).bind fun _ => ih _ _

theorem symbVector_inv (nd : Yaml) (key : String) (o : ℤ) : Inv I (symbVector nd key o) := by
  unfold symbVector
  exact (Inv.ofYaml _).bind fun _ => Inv.ite ((Inv.ofYaml _).bind fun _ => Inv.ofExc _) (Inv.ofExc _)

theorem symbJoints_inv (ne : ℕ) (a b d : ℤ) (l : List (Option String × Yaml)) : ∀ i acc, Inv I (symbJoints ne a b d i acc l) := by
  induction l with
  | nil => intro i acc; exact Inv.pure _
  | cons e l ih =>
    intro i acc
    unfold symbJoints
    exact Inv.ite (Inv.pure _) ((symbVector_inv _ _ _).bind fun _ => (symbVector_inv _ _ _).bind fun _ => (symbVector_inv _ _ _).bind fun _ =>
      (Inv.ofYaml _).bind fun _ => (opt_inv _ _ _).bind fun _ => ih _ _)

theorem parseNums_inv (y : Yaml) : Inv I (parseNums y) := by
  unfold parseNums
  exact (Inv.ofYaml _).bind fun _ => (at1_inv _ _ _).bind fun _ => (Inv.ofYaml _).bind fun _ => (opt_inv _ _ _).bind fun _ =>
    (Inv.ofYaml _).bind fun _ => (at1_inv _ _ _).bind fun _ => (at1_inv _ _ _).bind fun _ => (Inv.ofYaml _).bind fun _ =>
    (at1_inv _ _ _).bind fun _ => (at1_inv _ _ _).bind fun _ => Inv.pure _

theorem parseDynSymb_inv (y : Yaml) (nj : ℤ) : Inv I (parseDynSymb y nj) := by
  unfold parseDynSymb parseDlSymb parseElaSymb
  exact (Inv.ofYaml _).bind fun _ => (symbLinks_inv _ _ _ _ _).bind fun _ => Inv.read fun s =>
    (Inv.ite (symbLinks_inv _ _ _ _ _) (Inv.pure _)).bind fun _ =>
    (Inv.ite ((Inv.ofYaml _).bind fun _ => (Inv.ofYaml _).bind fun _ => symbJoints_inv _ _ _ _ _ _ _) (Inv.pure _)).bind fun _ => Inv.pure _

theorem putSymb_inv (h : ∀ (s : Part) k v, k ∈ symbKeys → I s → I { s with symb := s.symb.put k v }) {k : String} (hk : k ∈ symbKeys) (v : List ℤ) :
    Inv I (putSymb k v) := Inv.modify fun s hs => h s k v hk hs

theorem symbOpt_inv (h : ∀ (s : Part) k v, k ∈ symbKeys → I s → I { s with symb := s.symb.put k v }) {k : String} (hk : k ∈ symbKeys) (nd : Yaml) (m : ℕ) :
    Inv I (symbOpt nd k m) := by
  unfold symbOpt
  exact (Inv.ofYaml _).bind fun _ => Inv.ite ((Inv.ofYaml _).bind fun _ => putSymb_inv h hk _) (putSymb_inv h hk _)

end inv

theorem parse_onlyPar (y : Yaml) : Inv OnlyPar (parse y) := by
  have h1 : ∀ s s' : Part, s'.symb = s.symb → s'.args = s.args → OnlyPar s → OnlyPar s' :=
    fun s s' e1 e2 h => ⟨by rw [e1]; exact h.symb, by rw [e2]; exact h.args⟩
  have h2 : ∀ (s : Part) k v, k ∈ symbKeys → OnlyPar s → OnlyPar { s with symb := s.symb.put k v } := by
    intro s k v hk h
    refine ⟨fun p hp => ?_, h.args⟩
    rcases mem_put hp with rfl | hp
    · exact hk
    · exact h.symb p hp
  unfold parse
  refine (parseBasic_inv h1 y).bind fun nj => (classify_inv h1 nj).bind fun _ => (parseNums_inv y).bind fun v => (parseDynSymb_inv y nj).bind fun t => ?_
  obtain ⟨a, b, c⟩ := t
  refine (putSymb_inv h2 (by decide) _).bind fun _ => (putSymb_inv h2 (by decide) _).bind fun _ => (putSymb_inv h2 (by decide) _).bind fun _ =>
    (putSymb_inv h2 (by decide) _).bind fun _ => (putSymb_inv h2 (by decide) _).bind fun _ => (putSymb_inv h2 (by decide) _).bind fun _ =>
    Inv.bind ?_ fun _ => ?_
  · unfold parseKinSymb
    exact (Inv.ofYaml _).bind fun _ => (symbOpt_inv h2 (by decide) _ _).bind fun _ => (Inv.ofYaml _).bind fun _ =>
      (symbOpt_inv h2 (by decide) _ _).bind fun _ => (Inv.ofYaml _).bind fun _ => (symbOpt_inv h2 (by decide) _ _).bind fun _ =>
      (Inv.ofYaml _).bind fun _ => symbOpt_inv h2 (by decide) _ _
  · unfold parseFinal
    refine Inv.read fun s => (Inv.ofExc _).bind fun _ => (Inv.modify (by intro s; exact h1 _ _ rfl rfl)).bind fun _ => (Inv.ofIdx _).bind fun _ =>
      (Inv.ofIdx _).bind fun _ => (Inv.ofIdx _).bind fun _ => (Inv.ofIdx _).bind fun _ => (Inv.ofIdx _).bind fun _ => Inv.modify fun s hs => ⟨hs.symb, ?_⟩
    intro p hp
    rcases mem_insAll hp with hp | hp
    · cases hp
    · simp only [kinArgs, List.mem_cons, List.not_mem_nil, or_false] at hp
      rcases hp with rfl | rfl | rfl | rfl <;> simp [argKeys]

/-- How a constructed robot arises. -/
theorem construct_inv {y : Yaml} {r : Robot} (h : construct y = .ok r) : ∃ p : Part, OnlyPar p ∧ p.nj = some (p.types.length : ℤ) ∧
    r = { name := "robot", n := p.types.length, ne := p.ne, elastic := p.elastic, types := p.types, isEla := p.isEla, kI := p.kI, dI := p.dI,
          dlI := p.dlI, dmI := p.dmI, args := insAll p.args (newArgs p p.types.length), model := insAll p.model (newModel p p.types.length),
          symb := insAll p.symb (newSymb p p.types.length), funs := [], funArgs := [], funDescr := [] } := by
  have key : ∀ p, OnlyPar p → initVars p = .ok r → ∃ p : Part, OnlyPar p ∧ p.nj = some (p.types.length : ℤ) ∧
      r = { name := "robot", n := p.types.length, ne := p.ne, elastic := p.elastic, types := p.types, isEla := p.isEla, kI := p.kI, dI := p.dI,
            dlI := p.dlI, dmI := p.dmI, args := insAll p.args (newArgs p p.types.length), model := insAll p.model (newModel p p.types.length),
            symb := insAll p.symb (newSymb p p.types.length), funs := [], funArgs := [], funDescr := [] } := by
    intro p hp h
    refine ⟨p, hp, ?_⟩
    unfold initVars at h
    split at h
    · cases h
    · rename_i nj hnj
      split_ifs at h with h1 h2
      exact ⟨by rw [hnj, not_not.1 h1], (Made.ok.inj h).symm⟩
  have h0 := parse_onlyPar y Part.new ⟨by simp [Part.new], by simp [Part.new]⟩
  unfold construct at h
  cases e : parse y Part.new with
  | ok a s => rw [e] at h0 h; exact key _ h0 h
  | yaml s => rw [e] at h0 h; exact key _ h0 h
  | exc s => rw [e] at h; cases h
  | ub => rw [e] at h; cases h

/-- A name that is no parameter is looked up among the entries added by `initVarsFuns`. -/
theorem find_new {α : Type} {m l : SMap α} {k : String} {L : List String} (hm : ∀ p ∈ m, p.1 ∈ L) (hk : k ∉ L) : (insAll m l).find k = SMap.find l k := by
  have : m.find k = none := by
    induction m with
    | nil => rfl
    | cons a m ih =>
      rw [show (a :: m : SMap α) = (a.1, a.2) :: m from rfl, SMap.find_cons, if_neg fun e : a.1 = k => hk (e ▸ hm a List.mem_cons_self)]
      exact ih fun p hp => hm p (List.mem_cons_of_mem _ hp)
  rw [find_insAll, this]
  rfl

end Robot

end Thunder
