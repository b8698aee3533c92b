import Verif.Lemmas.CheckName
import Verif.Lemmas.Pipeline

/-!
# Registering the library
-/

open scoped Classical

namespace Thunder

noncomputable section

open Spec Act

namespace Robot

variable {c : Conf} {r : Robot}

/-! ## One registration -/

theorem collect_exact : ∀ {fargs : List String} {vs : List (List Var)} {r : Robot}, (∀ a ∈ fargs, r.symb.has a = true ∧ r.model.has a = true) →
    List.Forall₂ (fun a v => Selected (r.flags a) (r.mod a) v) fargs vs → collect fargs r = .ok (vs.map fun l => l.map Expr.var) r := by
  intro fargs
  induction fargs with
  | nil => intro vs r _ h; cases h; rfl
  | cons a fargs ih =>
    intro vs r hp h
    cases h with
    | cons h1 h2 =>
      rename_i v vs
      obtain ⟨p1, p2⟩ := hp a List.mem_cons_self
      have e : ({ r with symb := r.symb.ins a [], model := r.model.ins a (SX.zeros 0 0) } : Robot) = r := by
        simp only [SMap.ins, p1, p2, if_true]
      unfold collect
      rw [bind_ok (modify_run _ _), e, bind_ok (read_run _), pickRows_selected h1, bind_ok (ofIdx_some _ _),
        bind_ok (ih (fun a ha => hp a (List.mem_cons_of_mem _ ha)) h2)]
      rfl

/-- The symbols left in the given vectors. -/
def keySet (c : Conf) (ks : List Key) : Set Var := {v | ∃ k ∈ ks, v ∈ k.vars c}

/-- A registration that succeeds: the expression can be built, its symbols are symbols of the vectors named in the two lists, those of the first list
exist, and the name is accepted by CasADi and is not that of a vector. -/
structure GoodReg (c : Conf) (g : Reg) : Prop where
  part : FunName g.name
  ok : g.expr.ok
  fresh : ∀ k : Key, g.name ≠ k.str
  keys : ∃ sure pos : List Key, g.sure = sure.map Key.str ∧ g.possible = pos.map Key.str ∧ (sure ++ pos).Nodup ∧ (∀ k ∈ sure, k.here c) ∧
    SX.Over (keySet c (sure ++ pos)) g.expr

/-- The function is registered with the symbols of the vectors `ks`. -/
structure HasReg (c : Conf) (r : Robot) (g : Reg) (ks : List Key) : Prop where
  keys : ∃ sure pos : List Key, g.sure = sure.map Key.str ∧ g.possible = pos.map Key.str ∧ ks = sure ++ pos.filter fun k => (k.flags c).any fun v => v ≠ 0
  here : ∀ k ∈ ks, k.here c
  nodup : (ks.map (Key.vars c)).flatten.Nodup
  over : SX.Over (keySet c ks) g.expr
  model : r.model.find g.name = some g.expr
  funArgs : r.funArgs.find g.name = some (ks.map Key.str)
  funs : r.funs.find g.name = some ⟨ks.map (Key.vars c), g.expr⟩
  funDescr : r.funDescr.find g.name = some g.descr

theorem mem_flatten_vars {ks : List Key} {v : Var} : v ∈ (ks.map (Key.vars c)).flatten ↔ v ∈ keySet c ks := by
  simp [keySet, List.mem_flatten]

theorem nodup_flatten_vars {ks : List Key} (h : ks.Nodup) : (ks.map (Key.vars c)).flatten.Nodup := by
  rw [List.nodup_flatten]
  refine ⟨fun l hl => ?_, ?_⟩
  · obtain ⟨k, _, rfl⟩ := List.mem_map.1 hl
    exact k.nodup_vars
  · rw [List.pairwise_map]
    refine h.imp fun {a b} hab v ha hb => hab (Key.sym_inj ?_)
    rw [← (Key.mem_vars.1 ha).1, (Key.mem_vars.1 hb).1]

/-- The state after a registration. -/
def withReg (r : Robot) (g : Reg) (fargs : List String) (f : CFun) : Robot :=
  { r with model := r.model.put g.name g.expr, funArgs := r.funArgs.put g.name fargs, funDescr := r.funDescr.put g.name g.descr, funs := r.funs.put g.name f }

variable {mt : Key → SX}

theorem State.reg (h : State c mt r) {g : Reg} (hg : ∀ k : Key, g.name ≠ k.str) (fargs : List String) (f : CFun) : State c mt (withReg r g fargs f) where
  toFixed := ⟨h.n, h.ne, h.elastic, h.types, h.kI, h.dI, h.dlI, h.dmI, h.symb⟩
  model := fun k => (SMap.find_put_ne _ _ (hg k)).trans (h.model k)
  arg := h.arg

theorem HasReg.reg {g g' : Reg} {ks : List Key} (h : HasReg c r g' ks) (hg : g.name ≠ g'.name) (fargs : List String) (f : CFun) :
    HasReg c (withReg r g fargs f) g' ks where
  keys := h.keys
  here := h.here
  nodup := h.nodup
  over := h.over
  model := (SMap.find_put_ne _ _ hg).trans h.model
  funArgs := (SMap.find_put_ne _ _ hg).trans h.funArgs
  funs := (SMap.find_put_ne _ _ hg).trans h.funs
  funDescr := (SMap.find_put_ne _ _ hg).trans h.funDescr

theorem any_flags (k : Key) : ((k.flags c).any fun v => v ≠ 0) = true ↔ ∃ i, i < k.size c ∧ k.flag c i ≠ 0 := by
  simp [Key.flags, flagsL, List.any_eq_true]

theorem register_ok (h : State c (Key.mat c) r) (hnm : RobotName r.name) {g : Reg} (hg : GoodReg c g) :
    ∃ ks fargs f, register g r = .ok () (withReg r g fargs f) ∧ HasReg c (withReg r g fargs f) g ks := by
  obtain ⟨sure, pos, h1, h2, hn, hs, ho⟩ := hg.keys
  obtain ⟨ks, hks⟩ : ∃ ks, ks = sure ++ pos.filter fun k => (k.flags c).any fun v => v ≠ 0 := ⟨_, rfl⟩
  have hobt : obtainSymb r g.sure g.possible = ks.map Key.str := by
    rw [hks, obtainSymb, h1, h2, List.map_append, List.filter_map]
    congr 2
    refine List.filter_congr fun k _ => ?_
    rw [Function.comp_apply, h.flags]
  have hkh : ∀ k ∈ ks, k.here c := by
    intro k hk
    rw [hks] at hk
    rcases List.mem_append.1 hk with hk | hk
    · exact hs k hk
    · obtain ⟨i, hi, _⟩ := (any_flags k).1 (List.mem_filter.1 hk).2
      by_contra hh
      rw [Key.size_of_not_here hh] at hi
      omega
  have hkn : ks.Nodup := by
    rw [hks]
    exact hn.sublist (List.Sublist.append_left List.filter_sublist _)
  have hset : ∀ v ∈ keySet c (sure ++ pos), v ∈ keySet c ks := by
    rintro v ⟨k, hk, hv⟩
    refine ⟨k, ?_, hv⟩
    rw [hks]
    rcases List.mem_append.1 hk with hk | hk
    · exact List.mem_append_left _ hk
    · refine List.mem_append_right _ (List.mem_filter.2 ⟨hk, (any_flags k).2 ⟨v.idx, (Key.mem_vars.1 hv).2⟩⟩)
  have hover : SX.Over (keySet c ks) g.expr := fun i j => (ho i j).trans hset
  obtain ⟨r₁, hr₁⟩ : ∃ r₁ : Robot, r₁ = { r with model := r.model.put g.name g.expr, funArgs := r.funArgs.put g.name (ks.map Key.str), funDescr := r.funDescr.put g.name g.descr } := ⟨_, rfl⟩
  have hmod : ∀ k : Key, r₁.model.find k.str = r.model.find k.str := by
    intro k; rw [hr₁]; exact SMap.find_put_ne _ _ (hg.fresh k)
  have hsym : r₁.symb = r.symb := by rw [hr₁]
  have hcol : collect (ks.map Key.str) r₁ = .ok ((ks.map (Key.vars c)).map fun l => l.map Expr.var) r₁ := by
    refine collect_exact (fun a ha => ?_) ?_
    · obtain ⟨k, hk, rfl⟩ := List.mem_map.1 ha
      refine ⟨by rw [hsym]; exact h.hasSymb (Key.listed_of_here (hkh k hk)), ?_⟩
      unfold SMap.has
      rw [hmod, h.model, if_pos (hkh k hk)]; rfl
    · rw [List.forall₂_map_left_iff, List.forall₂_map_right_iff, List.forall₂_same]
      intro k hk
      have e1 : r₁.flags k.str = k.flags c := by
        rw [← h.flags]; unfold Robot.flags; rw [hsym]
      have e2 : r₁.mod k.str = k.mat c := by
        unfold Robot.mod SMap.get
        rw [hmod, h.model, if_pos (hkh k hk)]; rfl
      rw [e1, e2]
      exact k.selected
  refine ⟨ks, ks.map Key.str, ⟨ks.map (Key.vars c), g.expr⟩, ?_, ⟨sure, pos, h1, h2, hks⟩, hkh, nodup_flatten_vars hkn, hover, SMap.find_put_same _ _ _, SMap.find_put_same _ _ _,
    SMap.find_put_same _ _ _, SMap.find_put_same _ _ _⟩
  have hadd : addFunction g.name g.expr (ks.map Key.str) g.descr true r = .ok 1 (withReg r g (ks.map Key.str) ⟨ks.map (Key.vars c), g.expr⟩) := by
    unfold addFunction
    rw [bind_ok (read_run _)]
    simp only [Bool.not_true, Bool.false_and, Bool.false_eq_true, if_false]
    rw [bind_ok (modify_run _ _), ← hr₁, bind_ok hcol, mkFun_ok (check_of_good hnm hg.part) (nodup_flatten_vars hkn) fun i _ j _ v hv => mem_flatten_vars.2 (hover i j hv),
      bind_ok (ofExc_some _ _), bind_ok (modify_run _ _), hr₁]
    rfl
  unfold register
  rw [bind_ok (read_run _), if_pos hg.ok, bind_ok (ofExc_some _ _), hobt, bind_ok hadd]
  rfl

/-! ## Sequences of registrations -/

/-- Further entries of `model`. -/
def extra : List String := ["par_REG", "k", "d", "dm", "Mm"]

/-- The functions in `L` are registered, and no others. -/
structure Run (c : Conf) (r : Robot) (L : Set Reg) : Prop extends State c (Key.mat c) r where
  named : RobotName r.name
  reg : ∀ g ∈ L, ∃ ks, HasReg c r g ks
  only : ∀ f, r.funArgs.has f = true → ∃ g ∈ L, g.name = f
  names : ∀ s, r.model.has s = true → (∃ k : Key, s = k.str) ∨ (∃ g ∈ L, s = g.name) ∨ s ∈ extra

/-- Code that, started with the functions in `L`, terminates normally with the functions in `L'`. -/
def Does (c : Conf) (a : Act Robot Unit) (L L' : Set Reg) : Prop := ∀ r, Run c r L → ∃ r', a r = .ok () r' ∧ Run c r' L'

variable {L L' L'' : Set Reg} {F : Set Reg}

theorem Does.bind {a b : Act Robot Unit} (h : Does c a L L') (h' : Does c b L' L'') : Does c (a >>= fun _ => b) L L'' := fun r hr => by
  obtain ⟨r₁, e₁, h₁⟩ := h r hr
  obtain ⟨r₂, e₂, h₂⟩ := h' r₁ h₁
  exact ⟨r₂, (bind_ok e₁).trans e₂, h₂⟩

theorem Does.pure : Does c (pure ()) L L := fun r hr => ⟨r, rfl, hr⟩

theorem Does.read {f : Robot → Act Robot Unit} (h : ∀ r, Run c r L → Does c (f r) L L') : Does c (Act.read >>= f) L L' := fun r hr =>
  h r hr r hr

theorem Does.unlessHas {a : Act Robot Unit} (s : String) (h : Does c a L L) : Does c (unlessHas s a) L L := by
  refine Does.read fun r _ => ?_
  split_ifs
  · exact Does.pure
  · exact h

/-- Functions of `F` with the same name are the same. -/
def Uniq (F : Set Reg) : Prop := ∀ g ∈ F, ∀ g' ∈ F, g.name = g'.name → g = g'

theorem Does.register (hF : Uniq F) (hL : ∀ g ∈ L, g ∈ F) {g : Reg} (hg : GoodReg c g) (hgF : g ∈ F) : Does c (register g) L (insert g L) := fun r hr => by
  obtain ⟨ks, fargs, f, e, h⟩ := register_ok hr.toState hr.named hg
  refine ⟨_, e, hr.toState.reg hg.fresh _ _, hr.named, fun g' hg' => ?_, fun s hs => ?_, fun s hs => ?_⟩
  · rcases hg' with rfl | hg'
    · exact ⟨ks, h⟩
    · by_cases en : g.name = g'.name
      · obtain rfl := hF g hgF g' (hL g' hg') en
        exact ⟨ks, h⟩
      · obtain ⟨ks', h'⟩ := hr.reg g' hg'
        exact ⟨ks', h'.reg en _ _⟩
  · rcases (has_put _ _ _ _).1 hs with e | hs
    · exact ⟨g, Set.mem_insert _ _, e⟩
    · obtain ⟨g', hg', e'⟩ := hr.only s hs
      exact ⟨g', Set.mem_insert_of_mem _ hg', e'⟩
  · rcases (has_put _ _ _ _).1 hs with e | hs
    · exact .inr (.inl ⟨g, Set.mem_insert _ _, e.symm⟩)
    · rcases hr.names s hs with h | ⟨g', hg', e'⟩ | h
      · exact .inl h
      · exact .inr (.inl ⟨g', Set.mem_insert_of_mem _ hg', e'⟩)
      · exact .inr (.inr h)

theorem Does.registerAll (hF : Uniq F) (hG : ∀ g ∈ F, GoodReg c g) : ∀ {gs : List Reg} {L : Set Reg}, (∀ g ∈ L, g ∈ F) → (∀ g ∈ gs, g ∈ F) →
    Does c (registerAll gs) L (L ∪ {g | g ∈ gs}) := by
  intro gs
  induction gs with
  | nil =>
    intro L _ _
    have : L ∪ {g | g ∈ ([] : List Reg)} = L := by simp
    rw [this]
    exact Does.pure
  | cons g gs ih =>
    intro L hL hgs
    have hg := hgs g List.mem_cons_self
    have h1 := Does.register hF hL (hG g hg) hg
    have h2 := ih (L := insert g L) (fun g' hg' => by
      rcases hg' with rfl | hg'
      · exact hg
      · exact hL g' hg') fun g' hg' => hgs g' (List.mem_cons_of_mem _ hg')
    have : L ∪ {g' | g' ∈ g :: gs} = insert g L ∪ {g' | g' ∈ gs} := by
      ext g'
      simp only [Set.mem_union, Set.mem_ofPred_eq, List.mem_cons, Set.mem_insert_iff]
      tauto
    rw [this]
    exact h1.bind h2

/-- Registering again. -/
theorem Does.again (hF : Uniq F) (hG : ∀ g ∈ F, GoodReg c g) {gs : List Reg} (hL : ∀ g ∈ L, g ∈ F) (hgs : ∀ g ∈ gs, g ∈ L) :
    Does c (Robot.registerAll gs) L L := by
  have := Does.registerAll hF hG hL fun g hg => hL g (hgs g hg)
  rwa [Set.union_eq_self_of_subset_right (t := {g | g ∈ gs}) (fun g hg => hgs g hg)] at this

theorem Does.touchModel {s : String} (hs : ∀ k : Key, s ≠ k.str) (hx : s ∈ extra) : Does c (touchModel s) L L := fun r hr => by
  refine ⟨_, rfl, ⟨⟨hr.n, hr.ne, hr.elastic, hr.types, hr.kI, hr.dI, hr.dlI, hr.dmI, hr.symb⟩, fun k => ?_, hr.arg⟩, hr.named, fun g hg => ?_, hr.only,
    fun s' hs' => ?_⟩
  · simp only
    rw [SMap.find_ins, if_neg (hs k)]
    exact hr.model k
  · obtain ⟨ks, h⟩ := hr.reg g hg
    refine ⟨ks, h.keys, h.here, h.nodup, h.over, ?_, h.funArgs, h.funs, h.funDescr⟩
    simp only
    rw [SMap.find_ins, h.model]
    split_ifs with e
    · rw [e, h.model]; rfl
    · rfl
  · rcases (has_ins _ _ _ _).1 hs' with e | hs'
    · exact .inr (.inr (e ▸ hx))
    · exact hr.names s' hs'

/-- Reading the symbolic entries of a vector. -/
theorem Does.symbolic {k : Key} (hk : k.here c) {f : List Expr → Act Robot Unit} (h : Does c (f ((k.vars c).map .var)) L L') :
    Does c (symbolic k.str >>= f) L L' := fun r hr => by
  obtain ⟨r', e, h'⟩ := h r hr
  refine ⟨r', ?_, h'⟩
  have : Robot.symbolic k.str r = .ok ((k.vars c).map .var) r := by
    unfold Robot.symbolic
    rw [bind_ok (read_run _), hr.flags, hr.mod hk, pickRows_selected k.selected]
    rfl
  rw [bind_ok this]
  exact e

/-! ## `update_symb_parameters` -/

/-- The values of the symbolic entries. -/
def kept (c : Conf) (k : Key) : List Num := (k.idx c).map fun i => some (k.val c i)

theorem mapM_keep {α : Type} {fl : ℕ → ℤ} {get : ℕ → Option α} {g : ℕ → α} : ∀ (l : List ℕ), (∀ i ∈ l, fl i ≠ 0 → get i = some (g i)) →
    (l.mapM fun i => if fl i = 0 then some [] else (get i).map fun x => [x]) = some (l.map fun i => if fl i = 0 then [] else [g i]) := by
  intro l
  induction l with
  | nil => intro _; rfl
  | cons a l ih =>
    intro h
    rw [List.mapM_cons, ih fun i hi => h i (List.mem_cons_of_mem _ hi)]
    by_cases h0 : fl a = 0
    · simp [h0]
    · simp [h0, h a List.mem_cons_self h0]

theorem keep_ok {α : Type} {k : Key} {get : ℕ → Option α} {g : ℕ → α} (h : ∀ i < k.size c, k.flag c i ≠ 0 → get i = some (g i)) :
    keep (k.flags c) get = some ((k.idx c).map g) := by
  unfold keep
  have hlen : (k.flags c).length = k.size c := by simp [Key.flags, flagsL]
  rw [hlen, mapM_keep (fl := fun i => (k.flags c).getD i 0) (g := g)]
  · rw [Option.map_some, flatten_if]
    congr 2
    exact Key.symIdx_flags k
  · intro i hi hf
    have hi := List.mem_range.1 hi
    rw [Key.getD_flags hi] at hf
    exact h i hi hf

theorem compact_ok {k : Key} (hm : k.here c → r.model.find k.str = some (k.mat c)) (ha : r.arg k.str = nums (k.size c) (k.val c)) :
    compact k.str (k.flags c) r = .ok () { r with
      model := r.model.put k.str (SX.ofList ((k.vars c).map .var)), args := r.args.put k.str (kept c k) } := by
  have h1 : keep (k.flags c) (fun i => if i < (r.mod k.str).rows * (r.mod k.str).cols then
      some ((r.mod k.str).e (i % (r.mod k.str).rows) (i / (r.mod k.str).rows)) else none) = some ((k.vars c).map .var) := by
    rw [keep_ok (g := fun i => .var ⟨k.sym, i⟩)]
    · rw [Key.vars, List.map_map]; rfl
    · intro i hi hf
      have hh : k.here c := by
        by_contra hh
        rw [Key.size_of_not_here hh] at hi; omega
      have e : r.mod k.str = k.mat c := by
        unfold Robot.mod SMap.get
        rw [hm hh]; rfl
      have er : (k.mat c).rows = k.size c := rfl
      have ec : (k.mat c).cols = 1 := rfl
      rw [e, er, ec, Nat.mul_one, if_pos hi, Nat.mod_eq_of_lt hi, Nat.div_eq_of_lt hi, Key.mat_sym hi hf]
  have h2 : keep (k.flags c) (fun i => (r.arg k.str)[i]?) = some (kept c k) := by
    rw [kept]
    refine keep_ok fun i hi _ => ?_
    rw [ha]; simp [nums, hi]
  unfold compact
  rw [bind_ok (read_run _), h1, bind_ok (ofExc_some _ _), h2, bind_ok (ofExc_some _ _)]
  rfl

/-- The robot returned by `robot_from_file`. -/
structure Done (c : Conf) (r : Robot) (L : Set Reg) : Prop extends Fixed c r where
  model : ∀ k : Key, k.listed c → r.model.find k.str = some (SX.ofList ((k.vars c).map .var))
  arg : ∀ k : Key, r.arg k.str = kept c k
  reg : ∀ g ∈ L, ∃ ks, HasReg c r g ks
  only : ∀ f, r.funArgs.has f = true → ∃ g ∈ L, g.name = f

theorem updateLoop_ok : ∀ (l : List (String × List ℤ)) (r : Robot), (∀ p ∈ l, ∃ k : Key, k.listed c ∧ p = (k.str, k.flags c)) → (l.map Prod.fst).Nodup →
    (∀ k : Key, k.str ∈ l.map Prod.fst → (k.here c → r.model.find k.str = some (k.mat c)) ∧ r.arg k.str = nums (k.size c) (k.val c)) →
    ∃ r', l.foldr (fun p k => compact p.1 p.2 >>= fun _ => k) (pure ()) r = .ok () r' ∧ r' = { r with args := r'.args, model := r'.model } ∧
      (∀ k : Key, k.str ∈ l.map Prod.fst → r'.model.find k.str = some (SX.ofList ((k.vars c).map .var)) ∧ r'.arg k.str = kept c k) ∧
      ∀ s, s ∉ l.map Prod.fst → r'.model.find s = r.model.find s ∧ r'.arg s = r.arg s := by
  intro l
  induction l with
  | nil => intro r _ _ _; exact ⟨r, rfl, rfl, fun k hk => absurd hk (by simp), fun _ _ => ⟨rfl, rfl⟩⟩
  | cons p l ih =>
    intro r hl hn h
    obtain ⟨k, hk, rfl⟩ := hl p List.mem_cons_self
    obtain ⟨hn1, hn2⟩ := List.nodup_cons.1 hn
    have hk0 := h k (by simp)
    have e₁ := compact_ok hk0.1 hk0.2
    obtain ⟨r₁, hr₁⟩ : ∃ r₁ : Robot, r₁ = { r with
      model := r.model.put k.str (SX.ofList ((k.vars c).map .var)), args := r.args.put k.str (kept c k) } := ⟨_, rfl⟩
    rw [← hr₁] at e₁
    have hoth : ∀ s, s ≠ k.str → r₁.model.find s = r.model.find s ∧ r₁.arg s = r.arg s := by
      intro s hs
      rw [hr₁]
      exact ⟨SMap.find_put_ne _ _ (Ne.symm hs), SMap.get_put_ne _ _ _ (Ne.symm hs)⟩
    have hown : r₁.model.find k.str = some (SX.ofList ((k.vars c).map .var)) ∧ r₁.arg k.str = kept c k := by
      rw [hr₁]
      exact ⟨SMap.find_put_same _ _ _, by simp [Robot.arg, SMap.get]⟩
    obtain ⟨r', e', x', y', z'⟩ := ih r₁ (fun p hp => hl p (List.mem_cons_of_mem _ hp)) hn2 (fun k' hk' => by
      have hne : k'.str ≠ k.str := fun e => hn1 (by rw [← e]; exact hk')
      obtain ⟨o1, o2⟩ := hoth k'.str hne
      rw [o1, o2]
      exact h k' (by rw [List.map_cons]; exact List.mem_cons_of_mem _ hk'))
    refine ⟨r', by rw [List.foldr_cons, bind_ok e₁]; exact e', by rw [x', hr₁], fun k' hk' => ?_, fun s hs => ?_⟩
    · by_cases hm : k'.str ∈ l.map Prod.fst
      · exact y' k' hm
      · have he : k'.str = k.str := by
          rw [List.map_cons, List.mem_cons] at hk'
          exact hk'.resolve_right hm
        obtain rfl := Key.str_inj he
        obtain ⟨z1, z2⟩ := z' _ hm
        exact ⟨z1.trans hown.1, z2.trans hown.2⟩
    · rw [List.map_cons, List.mem_cons, not_or] at hs
      obtain ⟨z1, z2⟩ := z' s hs.2
      obtain ⟨o1, o2⟩ := hoth s hs.1
      exact ⟨z1.trans o1, z2.trans o2⟩

theorem updateSymb_ok (h : Run c r L) (hL : ∀ g ∈ L, GoodReg c g) : ∃ r', updateSymb r = .ok () r' ∧ Done c r' L ∧ r' = { r with args := r'.args, model := r'.model } ∧
    (∀ s, (∀ k : Key, s ≠ k.str) → r'.arg s = r.arg s) := by
  obtain ⟨r', e, x, y, z⟩ := updateLoop_ok (c := c) r.symb r (fun p hp => key_of_mem_symb (by rwa [h.symb] at hp))
    (by rw [h.symb]; exact (sorted_symb c).nodup) fun k _ => ⟨fun hk => by rw [h.model, if_pos hk], h.arg k⟩
  have hm : ∀ k : Key, k.listed c → k.str ∈ r.symb.map Prod.fst := by
    intro k hk
    have := find_symb c k
    rw [if_pos hk, ← h.symb] at this
    exact List.mem_map_of_mem (SMap.mem_of_find this)
  have hnot : ∀ s, (∀ k : Key, s ≠ k.str) → s ∉ r.symb.map Prod.fst := by
    intro s hs hmem
    obtain ⟨p, hp, rfl⟩ := List.mem_map.1 hmem
    obtain ⟨k, _, rfl⟩ := key_of_mem_symb (c := c) (by rwa [h.symb] at hp)
    exact hs k rfl
  refine ⟨r', ?_, ⟨?_, fun k hk => (y k (hm k hk)).1, fun k => ?_, fun g hg => ?_, fun f hf => ?_⟩, x, fun s hs => (z s (hnot s hs)).2⟩
  · unfold updateSymb
    rw [bind_ok (read_run _), foldl_acts _ _ (pure_run () r)]
    exact e
  · rw [x]
    exact ⟨h.n, h.ne, h.elastic, h.types, h.kI, h.dI, h.dlI, h.dmI, h.symb⟩
  · by_cases hk : k.str ∈ r.symb.map Prod.fst
    · exact (y k hk).2
    · have h0 : k.size c = 0 := Key.size_of_not_here fun hh => hk (hm k (Key.listed_of_here hh))
      rw [(z _ hk).2, h.arg]
      simp [kept, Key.idx, nums, h0]
  · obtain ⟨ks, hr⟩ := h.reg g hg
    refine ⟨ks, hr.keys, hr.here, hr.nodup, hr.over, ?_, ?_, ?_, ?_⟩
    · rw [(z _ (hnot _ (hL g hg).fresh)).1]; exact hr.model
    · rw [x]; exact hr.funArgs
    · rw [x]; exact hr.funs
    · rw [x]; exact hr.funDescr
  · rw [x] at hf
    exact h.only f hf

end Robot

end

end Thunder
