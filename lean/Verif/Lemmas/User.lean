import Verif.Lemmas.Names
import Verif.Lemmas.Book
import Verif.Model.User

/-!
# `robot_from_file` with user-defined functions
-/

open scoped Classical

namespace Thunder

noncomputable section

open Spec Act

namespace Robot

variable {c : Conf} {r r' : Robot}

/-! ## The symbols of an argument -/

/-- The symbols of the argument `s` that are left; none when it is not an argument of the robot. -/
def syms (c : Conf) (s : String) : List Var := if h : ∃ k : Key, k.str = s then h.choose.vars c else []

theorem syms_key (k : Key) : syms c k.str = k.vars c := by
  have h : ∃ k' : Key, k'.str = k.str := ⟨k, rfl⟩
  unfold syms
  rw [dif_pos h]
  exact congrArg (fun k => Key.vars c k) (Key.str_inj h.choose_spec)

theorem syms_other {s : String} (h : ∀ k : Key, s ≠ k.str) : syms c s = [] := dif_neg fun ⟨k, e⟩ => h k e.symm

theorem pickRows_nil {A : SX} {l : List Expr} (h : pickRows [] A = some l) : l = [] := by
  unfold pickRows at h
  rw [Option.map_eq_some_iff] at h
  obtain ⟨L, h1, rfl⟩ := h
  cases hr : A.rows with
  | zero => rw [hr] at h1; cases h1; rfl
  | succ n =>
    rw [hr, List.range_succ_eq_map, List.mapM_cons] at h1
    simp at h1

/-- The flags and the vectors of the arguments are as `init_symb_parameters` leaves them. -/
structure Vecs (c : Conf) (r : Robot) : Prop where
  flags : ∀ k : Key, r.flags k.str = k.flags c
  other : ∀ s, (∀ k : Key, s ≠ k.str) → r.flags s = []
  here : ∀ k : Key, k.here c → r.model.find k.str = some (k.mat c)
  sorted : SMap.Sorted r.symb

theorem Vecs.pick (h : Vecs c r) {a : String} {l : List Expr} (e : pickRows (r.flags a) (r.mod a) = some l) : l = (syms c a).map Expr.var := by
  by_cases hk : ∃ k : Key, a = k.str
  · obtain ⟨k, rfl⟩ := hk
    by_cases hh : k.here c
    · have hm : r.mod k.str = k.mat c := by unfold Robot.mod SMap.get; rw [h.here k hh]; rfl
      rw [h.flags, hm, pickRows_selected k.selected] at e
      rw [syms_key]
      exact (Option.some.inj e).symm
    · have h0 : k.size c = 0 := Key.size_of_not_here hh
      have hf : r.flags k.str = [] := by rw [h.flags, Key.flags, h0]; rfl
      rw [hf] at e
      rw [pickRows_nil e, syms_key, Key.vars, Key.idx, h0]
      rfl
  · have hk : ∀ k : Key, a ≠ k.str := fun k e => hk ⟨k, e⟩
    rw [h.other a hk] at e
    rw [pickRows_nil e, syms_other hk]
    rfl

theorem Vecs.collect : ∀ {args : List String} {r r' : Robot} {ls : List (List Expr)}, Vecs c r → collect args r = .ok ls r' →
    ls = args.map (fun a => (syms c a).map Expr.var) ∧ Vecs c r' ∧ r' = { r with symb := r'.symb, model := r'.model } ∧
    (∀ s A, r.model.find s = some A → r'.model.find s = some A) ∧ ∀ s, r'.symb.has s = true ↔ s ∈ args ∨ r.symb.has s = true := by
  intro args
  induction args with
  | nil =>
    intro r r' ls h e
    cases e
    exact ⟨rfl, h, rfl, fun _ _ h => h, fun s => by simp⟩
  | cons a args ih =>
    intro r r' ls h e
    unfold Robot.collect at e
    obtain ⟨r₁, hr₁⟩ : ∃ r₁ : Robot, r₁ = { r with symb := r.symb.ins a [], model := r.model.ins a (SX.zeros 0 0) } := ⟨_, rfl⟩
    rw [bind_ok (modify_run _ _), ← hr₁, bind_ok (read_run _)] at e
    have hf : ∀ s, r₁.flags s = r.flags s := fun s => by rw [hr₁]; exact SMap.get_ins_default _ _ _ _
    have hm : ∀ s A, r.model.find s = some A → r₁.model.find s = some A := by
      intro s A hA
      rw [hr₁]
      dsimp only
      rw [SMap.find_ins]
      split_ifs with e
      · subst e; rw [hA]; rfl
      · exact hA
    have h1 : Vecs c r₁ := ⟨fun k => (hf _).trans (h.flags k), fun s hs => (hf s).trans (h.other s hs), fun k hk => hm _ _ (h.here k hk), by
      rw [hr₁]; exact h.sorted.ins _ _⟩
    cases hp : pickRows (r₁.flags a) (r₁.mod a) with
    | none => rw [hp] at e; cases e
    | some l =>
      rw [hp, bind_ok (ofIdx_some _ _)] at e
      cases hc : Robot.collect args r₁ with
      | ok ls' r₂ =>
        rw [bind_ok hc] at e
        obtain ⟨rfl, rfl⟩ : l :: ls' = ls ∧ r₂ = r' := by simpa using e
        obtain ⟨i1, i2, i3, i4, i5⟩ := ih h1 hc
        refine ⟨?_, i2, ?_, fun s A hA => i4 s A (hm s A hA), fun s => ?_⟩
        · rw [List.map_cons, ← i1, h1.pick hp]
        · rw [i3, hr₁]
        · rw [i5, hr₁]
          dsimp only
          rw [has_ins, List.mem_cons, eq_comm (a := s)]
          tauto
      | yaml r₂ => rw [bind_yaml hc] at e; cases e
      | exc r₂ => rw [bind_exc hc] at e; cases e
      | ub => rw [bind_ub hc] at e; cases e

/-! ## Before the compaction -/

/-- The function `f` is registered with the symbols of its arguments; the texts satisfy `T`. -/
def UserReg (c : Conf) (T : String → Prop) (r : Robot) (f : String) : Prop :=
  ∃ fargs A d, r.funArgs.find f = some fargs ∧ r.funs.find f = some ⟨fargs.map (syms c), A⟩ ∧ r.model.find f = some A ∧ r.funDescr.find f = some d ∧
    (fargs.map (syms c)).flatten.Nodup ∧ (∀ i < A.rows, ∀ j < A.cols, ∀ v ∈ (A.e i j).fv, v ∈ (fargs.map (syms c)).flatten) ∧
    (∀ a ∈ fargs, r.symb.has a = true) ∧ r.symb.has f = false ∧ T f ∧ T d ∧ ∀ a ∈ fargs, T a

/-- The robot before `update_symb_parameters`. -/
structure Pre (c : Conf) (T : String → Prop) (r : Robot) : Prop extends Vecs c r where
  n : r.n = c.n
  arg : ∀ k : Key, r.arg k.str = nums (k.size c) (k.val c)
  reg : ∀ f, r.funs.has f = true → UserReg c T r f

variable {T : String → Prop}

theorem mem_elements_of {A : SX} {i j : ℕ} (hi : i < A.rows) (hj : j < A.cols) : A.e i j ∈ A.elements := by
  refine List.mem_map.2 ⟨i + A.rows * j, List.mem_range.2 (index_lt hi hj), ?_⟩
  rw [Nat.add_mul_mod_self_left, Nat.mod_eq_of_lt hi, Nat.add_mul_div_left _ _ (by omega), Nat.div_eq_of_lt hi, Nat.zero_add]

theorem mapM_map_symOf (l : List (List Var)) : (l.map fun v => v.map Expr.var).mapM (fun l => l.mapM symOf) = some l := mapM_mapM_symOf l

theorem mkFun_some {nm : String} {vs : List (List Var)} {A : SX} {fn : CFun} (h : mkFun nm (vs.map fun v => v.map Expr.var) A = some fn) :
    fn = ⟨vs, A⟩ ∧ vs.flatten.Nodup ∧ ∀ i < A.rows, ∀ j < A.cols, ∀ v ∈ (A.e i j).fv, v ∈ vs.flatten := by
  unfold mkFun at h
  split_ifs at h with h0
  rw [mapM_map_symOf] at h
  dsimp only at h
  split_ifs at h with hh
  refine ⟨(Option.some.inj h).symm, hh.1, fun i hi j hj v hv => ?_⟩
  exact hh.2 _ (mem_elements_of hi hj) hv

theorem register_user (h : Pre c T r) {g : Reg} (hn : ∀ k : Key, g.name ≠ k.str) (hs : r.symb.has g.name = false)
    (hf : ∀ a ∈ g.sure ++ g.possible, a ≠ g.name ∧ r.funs.has a = false ∧ T a) (ht : T g.name) (hd : T g.descr) {u : Unit}
    (e : register g r = .ok u r') :
    Pre c T r' ∧ (∀ f, r'.funs.has f = true ↔ f = g.name ∨ r.funs.has f = true) ∧
      (∀ s, r'.symb.has s = true → s ∈ g.sure ++ g.possible ∨ r.symb.has s = true) ∧
      r'.funArgs.find g.name = some (obtainSymb r g.sure g.possible) := by
  obtain ⟨fargs, hfa⟩ : ∃ fargs, fargs = obtainSymb r g.sure g.possible := ⟨_, rfl⟩
  have hsub : ∀ a ∈ fargs, a ∈ g.sure ++ g.possible := by
    intro a ha
    rw [hfa, obtainSymb] at ha
    rcases List.mem_append.1 ha with ha | ha
    · exact List.mem_append_left _ ha
    · exact List.mem_append_right _ (List.mem_filter.1 ha).1
  unfold register at e
  rw [bind_ok (read_run _)] at e
  split_ifs at e with hok
  swap
  · cases e
  rw [bind_ok (ofExc_some _ _), ← hfa] at e
  unfold addFunction at e
  simp only [act_assoc] at e
  rw [bind_ok (read_run _)] at e
  simp only [Bool.not_true, Bool.false_and, Bool.false_eq_true, if_false, act_assoc] at e
  obtain ⟨r₁, hr₁⟩ : ∃ r₁ : Robot, r₁ = { r with model := r.model.put g.name g.expr, funArgs := r.funArgs.put g.name fargs, funDescr := r.funDescr.put g.name g.descr } :=
    ⟨_, rfl⟩
  rw [bind_ok (modify_run _ _), ← hr₁] at e
  have hv₁ : Vecs c r₁ := by
    rw [hr₁]
    exact ⟨h.flags, h.other, fun k hk => (SMap.find_put_ne _ _ (hn k)).trans (h.here k hk), h.sorted⟩
  cases hc : Robot.collect fargs r₁ with
  | yaml r₂ => rw [bind_yaml hc] at e; cases e
  | exc r₂ => rw [bind_exc hc] at e; cases e
  | ub => rw [bind_ub hc] at e; cases e
  | ok ls r₂ =>
    rw [bind_ok hc] at e
    obtain ⟨i1, i2, i3, i4, i5⟩ := hv₁.collect hc
    have hls : ls = (fargs.map (syms c)).map fun v => v.map Expr.var := by rw [i1, List.map_map]; rfl
    cases hm : mkFun (cName r.name g.name) ls g.expr with
    | none => rw [hm] at e; cases e
    | some fn =>
      rw [hm, bind_ok (ofExc_some _ _), bind_ok (modify_run _ _)] at e
      have hr' : r' = { r₂ with funs := r₂.funs.put g.name fn } := by
        have : Res.ok () { r₂ with funs := r₂.funs.put g.name fn } = Res.ok u r' := e
        simpa using this.symm
      rw [hls] at hm
      obtain ⟨rfl, hnd, hfv⟩ := mkFun_some hm
      have f₂ : r₂.funs = r.funs := by rw [i3, hr₁]
      have a₂ : r₂.funArgs = r.funArgs.put g.name fargs := by rw [i3, hr₁]
      have d₂ : r₂.funDescr = r.funDescr.put g.name g.descr := by rw [i3, hr₁]
      have m₂ : ∀ s A, s ≠ g.name → r.model.find s = some A → r₂.model.find s = some A := by
        intro s A hs hA
        refine i4 s A ?_
        rw [hr₁]
        exact (SMap.find_put_ne _ _ (Ne.symm hs)).trans hA
      have s₂ : ∀ s, r₂.symb.has s = true ↔ s ∈ fargs ∨ r.symb.has s = true := by
        intro s
        rw [i5, hr₁]
      have hall : ∀ f, r'.funs.has f = true ↔ f = g.name ∨ r.funs.has f = true := by
        intro f
        rw [hr']
        dsimp only
        rw [f₂, has_put, eq_comm]
      refine ⟨⟨?_, ?_, ?_, fun f hff => ?_⟩, hall, ?_, ?_⟩
      · rw [hr']; exact ⟨i2.flags, i2.other, i2.here, i2.sorted⟩
      · rw [hr', i3, hr₁]; exact h.n
      · intro k; rw [hr', i3, hr₁]; exact h.arg k
      · rw [hr']
        by_cases hfn : f = g.name
        · subst hfn
          refine ⟨fargs, g.expr, g.descr, ?_, ?_, ?_, ?_, hnd, hfv, fun a ha => (s₂ a).2 (.inl ha), ?_, ht, hd, fun a ha => (hf a (hsub a ha)).2.2⟩
          · rw [a₂]; exact SMap.find_put_same _ _ _
          · exact SMap.find_put_same _ _ _
          · refine i4 _ _ ?_
            rw [hr₁]; exact SMap.find_put_same _ _ _
          · rw [d₂]; exact SMap.find_put_same _ _ _
          · rw [← Bool.not_eq_true]
            intro hh
            rcases (s₂ _).1 hh with hh | hh
            · exact (hf _ (hsub _ hh)).1 rfl
            · rw [hs] at hh; cases hh
        · obtain ⟨fa, A, d, b1, b2, b3, b4, b5, b6, b7, b8, b9⟩ := h.reg f (((hall f).1 hff).resolve_left hfn)
          refine ⟨fa, A, d, ?_, ?_, m₂ f A hfn b3, ?_, b5, b6, fun a ha => (s₂ a).2 (.inr (b7 a ha)), ?_, b9⟩
          · rw [a₂]; exact (SMap.find_put_ne _ _ (Ne.symm hfn)).trans b1
          · dsimp only
            rw [f₂]; exact (SMap.find_put_ne _ _ (Ne.symm hfn)).trans b2
          · rw [d₂]; exact (SMap.find_put_ne _ _ (Ne.symm hfn)).trans b4
          · rw [← Bool.not_eq_true]
            intro hh
            rcases (s₂ _).1 hh with hh | hh
            · have := (hf _ (hsub _ hh)).2.1
              rw [((hall f).1 hff).resolve_left hfn] at this
              cases this
            · rw [b8] at hh; cases hh
      · intro s hh
        rw [hr'] at hh
        rcases (s₂ s).1 hh with hh | hh
        · exact .inl (hsub _ hh)
        · exact .inr hh
      · rw [hr']
        dsimp only
        rw [a₂, ← hfa]
        exact SMap.find_put_same _ _ _

/-! ## The compaction -/

theorem compact_nil (s : String) (r : Robot) : compact s [] r = .ok () { r with model := r.model.put s (SX.ofList []), args := r.args.put s [] } := by
  unfold compact
  rw [bind_ok (read_run _)]
  rfl

theorem updateLoop_user : ∀ (l : List (String × List ℤ)) (r : Robot),
    (∀ p ∈ l, (∃ k : Key, p = (k.str, k.flags c) ∧ (k.here c → r.model.find k.str = some (k.mat c)) ∧ r.arg k.str = nums (k.size c) (k.val c)) ∨
      (∀ k : Key, p.1 ≠ k.str) ∧ p.2 = []) → (l.map Prod.fst).Nodup →
    ∃ r', l.foldr (fun p k => compact p.1 p.2 >>= fun _ => k) (pure ()) r = .ok () r' ∧ r' = { r with args := r'.args, model := r'.model } ∧
      (∀ s ∈ l.map Prod.fst, r'.model.find s = some (SX.ofList ((syms c s).map .var))) ∧ ∀ s, s ∉ l.map Prod.fst → r'.model.find s = r.model.find s := by
  intro l
  induction l with
  | nil => intro r _ _; exact ⟨r, rfl, rfl, fun s hs => absurd hs (by simp), fun _ _ => rfl⟩
  | cons p l ih =>
    intro r hl hn
    obtain ⟨hn1, hn2⟩ := List.nodup_cons.1 hn
    obtain ⟨a, e₁⟩ : ∃ a, compact p.1 p.2 r = .ok () { r with model := r.model.put p.1 (SX.ofList ((syms c p.1).map .var)), args := r.args.put p.1 a } := by
      rcases hl p List.mem_cons_self with ⟨k, rfl, h1, h2⟩ | ⟨h1, h2⟩
      · exact ⟨_, by rw [syms_key]; exact compact_ok h1 h2⟩
      · refine ⟨[], ?_⟩
        rw [h2, syms_other h1]
        exact compact_nil _ _
    obtain ⟨r₁, hr₁⟩ : ∃ r₁ : Robot, r₁ = { r with model := r.model.put p.1 (SX.ofList ((syms c p.1).map .var)), args := r.args.put p.1 a } := ⟨_, rfl⟩
    rw [← hr₁] at e₁
    have hm₁ : ∀ s, s ≠ p.1 → r₁.model.find s = r.model.find s := fun s hs => by rw [hr₁]; exact SMap.find_put_ne _ _ (Ne.symm hs)
    have ha₁ : ∀ s, s ≠ p.1 → r₁.arg s = r.arg s := fun s hs => by rw [hr₁]; exact SMap.get_put_ne _ _ _ (Ne.symm hs)
    obtain ⟨r', e, i1, i2, i3⟩ := ih r₁ (fun q hq => by
      have hne : q.1 ≠ p.1 := fun e => hn1 (List.mem_map.2 ⟨q, hq, e⟩)
      rcases hl q (List.mem_cons_of_mem _ hq) with ⟨k, rfl, h1, h2⟩ | h
      · exact .inl ⟨k, rfl, fun hk => (hm₁ _ hne).trans (h1 hk), (ha₁ _ hne).trans h2⟩
      · exact .inr h) hn2
    refine ⟨r', (bind_ok e₁).trans e, ?_, fun s hs => ?_, fun s hs => ?_⟩
    · rw [i1, hr₁]
    · rcases List.mem_cons.1 hs with rfl | hs
      · rw [i3 _ hn1, hr₁]; exact SMap.find_put_same _ _ _
      · exact i2 s hs
    · have hs' := not_or.1 (fun h => hs (List.mem_cons.2 h))
      rw [i3 s hs'.2, hm₁ s hs'.1]

/-- After the compaction every function is registered with the current symbols of its arguments. -/
theorem update_user (h : Pre c T r) : ∃ r', updateSymb r = .ok () r' ∧ r' = { r with args := r'.args, model := r'.model } ∧
    ∀ f, r.funs.has f = true → Spec.Registered r' f ∧ UserReg c T r' f := by
  obtain ⟨r', e, x, y, z⟩ := updateLoop_user (c := c) r.symb r (fun p hp => by
    have hf : r.flags p.1 = p.2 := by unfold Robot.flags SMap.get; rw [h.sorted.find_of_mem hp]; rfl
    by_cases hk : ∃ k : Key, p.1 = k.str
    · obtain ⟨k, hk⟩ := hk
      refine .inl ⟨k, Prod.ext hk ?_, h.here k, h.arg k⟩
      rw [← hf, hk, h.flags]
    · have hk : ∀ k : Key, p.1 ≠ k.str := fun k e => hk ⟨k, e⟩
      exact .inr ⟨hk, hf.symm.trans (h.other _ hk)⟩) h.sorted.nodup
  refine ⟨r', ?_, x, fun f hf => ?_⟩
  · unfold updateSymb
    rw [bind_ok (read_run _), foldl_acts _ _ (pure_run () r)]
    exact e
  · obtain ⟨fa, A, d, b1, b2, b3, b4, b5, b6, b7, b8, b9⟩ := h.reg f hf
    have hmf : r'.model.find f = some A := by
      rw [z f fun hm => ?_, b3]
      rw [SMap.has_iff.2 hm] at b8
      cases b8
    have e1 : r'.funArgs = r.funArgs := by rw [x]
    have e2 : r'.funs = r.funs := by rw [x]
    have e3 : r'.funDescr = r.funDescr := by rw [x]
    have e4 : r'.symb = r.symb := by rw [x]
    refine ⟨⟨fa, _, A, by rw [e1, b1], by rw [e2, b2], hmf, by rw [e3]; simp [SMap.has, b4], b5, b6, ?_⟩, fa, A, d, by rw [e1, b1], by rw [e2, b2], hmf,
      by rw [e3, b4], b5, b6, by rw [e4]; exact b7, by rw [e4]; exact b8, b9⟩
    rw [List.forall₂_map_right_iff, List.forall₂_same]
    exact fun a ha => y a (SMap.has_iff.1 (b7 a ha))

/-! ## The user hook -/

theorem run_pre {L : Set Reg} (h : Run c r L) (hL : ∀ g ∈ L, (∀ k : Key, g.name ≠ k.str) ∧ T g.name ∧ T g.descr) (hk : ∀ k : Key, T k.str)
    (hb : ∀ f, r.funs.has f = true → r.funArgs.has f = true) : Pre c T r where
  flags := h.flags
  other := by
    intro s hs
    unfold Robot.flags SMap.get
    cases hf : r.symb.find s with
    | none => rfl
    | some l =>
      have := SMap.mem_of_find hf
      rw [h.symb] at this
      obtain ⟨k, _, e⟩ := key_of_mem_symb this
      exact absurd (congrArg Prod.fst e) (hs k)
  here := fun k hk => by rw [h.model, if_pos hk]
  sorted := h.symb ▸ sorted_symb c
  n := h.n
  arg := h.arg
  reg := by
    intro f hf
    obtain ⟨g, hg, rfl⟩ := h.only f (hb f hf)
    obtain ⟨ks, hr⟩ := h.reg g hg
    obtain ⟨g1, g2, g3⟩ := hL g hg
    have e : (ks.map Key.str).map (syms c) = ks.map (Key.vars c) := by
      rw [List.map_map]
      exact List.map_congr_left fun k _ => syms_key k
    refine ⟨ks.map Key.str, g.expr, g.descr, hr.funArgs, by rw [e]; exact hr.funs, hr.model, hr.funDescr, by rw [e]; exact hr.nodup, ?_, ?_, ?_, g2, g3, ?_⟩
    · intro i _ j _ v hv
      rw [e]
      exact mem_flatten_vars.2 (hr.over i j hv)
    · intro a ha
      obtain ⟨k, hk, rfl⟩ := List.mem_map.1 ha
      exact h.hasSymb (Key.listed_of_here (hr.here k hk))
    · rw [← Bool.not_eq_true, SMap.has_iff]
      intro hm
      obtain ⟨p, hp, e⟩ := List.mem_map.1 hm
      rw [h.symb] at hp
      obtain ⟨k, _, rfl⟩ := key_of_mem_symb hp
      exact g1 k e.symm
    · intro a ha
      obtain ⟨k, _, rfl⟩ := List.mem_map.1 ha
      exact hk k

/-- The functions of the user: no name is that of an argument, no argument is a function. -/
structure UserOk (T : String → Prop) (N : Set String) (us : List UserFun) : Prop where
  name : ∀ u ∈ us, ∀ k : Key, u.name ≠ k.str
  args : ∀ u ∈ us, ∀ a ∈ u.sure ++ u.possible, a ∉ N ∧ a ∉ us.map UserFun.name
  text : ∀ u ∈ us, T u.name ∧ T u.descr ∧ ∀ a ∈ u.sure ++ u.possible, T a

theorem computeUser_ok {N : Set String} {us₀ : List UserFun} (hu : UserOk T N us₀) : ∀ {us : List UserFun} {r r' : Robot} {x : Unit}, (∀ u ∈ us, u ∈ us₀) →
    Pre c T r → (∀ f, r.funs.has f = true → f ∈ N ∨ f ∈ us₀.map UserFun.name) →
    (∀ s, r.symb.has s = true → (∃ k : Key, s = k.str) ∨ ∃ u ∈ us₀, s ∈ u.sure ++ u.possible) → computeUser us r = .ok x r' →
    Pre c T r' ∧ ∀ f, r'.funs.has f = true ↔ f ∈ us.map UserFun.name ∨ r.funs.has f = true := by
  intro us
  induction us with
  | nil =>
    intro r r' x _ h _ _ e
    cases e
    exact ⟨h, fun f => by simp⟩
  | cons u us ih =>
    intro r r' x hs h hf hsy e
    have hu₀ := hs u List.mem_cons_self
    obtain ⟨t1, t2, t3⟩ := hu.text u hu₀
    unfold computeUser at e
    rw [bind_ok (read_run _)] at e
    cases hc : register (u.reg r) r with
    | yaml r₂ => rw [bind_yaml hc] at e; cases e
    | exc r₂ => rw [bind_exc hc] at e; cases e
    | ub => rw [bind_ub hc] at e; cases e
    | ok z r₁ =>
      rw [bind_ok hc] at e
      obtain ⟨i1, i2, i3, -⟩ := register_user h (g := u.reg r) (hu.name u hu₀) (by
        rw [← Bool.not_eq_true]
        intro hh
        rcases hsy _ hh with ⟨k, hk⟩ | ⟨u', hu', ha⟩
        · exact hu.name u hu₀ k hk
        · exact (hu.args u' hu' _ ha).2 (List.mem_map.2 ⟨u, hu₀, rfl⟩)) (fun a ha => by
        refine ⟨fun e => (hu.args u hu₀ a ha).2 (List.mem_map.2 ⟨u, hu₀, e.symm⟩), ?_, t3 a ha⟩
        rw [← Bool.not_eq_true]
        intro hh
        rcases hf a hh with h | h
        · exact (hu.args u hu₀ a ha).1 h
        · exact (hu.args u hu₀ a ha).2 h) t1 t2 hc
      obtain ⟨j1, j2⟩ := ih (fun u' hu' => hs u' (List.mem_cons_of_mem _ hu')) i1 (fun f hff => by
        rcases (i2 f).1 hff with rfl | hff
        · exact .inr (List.mem_map.2 ⟨u, hu₀, rfl⟩)
        · exact hf f hff) (fun s hss => by
        rcases i3 s hss with h | h
        · exact .inr ⟨u, hu₀, h⟩
        · exact hsy s h) e
      refine ⟨j1, fun f => ?_⟩
      rw [j2, i2, List.map_cons, List.mem_cons]
      show _ ∨ f = u.name ∨ _ ↔ _
      tauto

theorem keeps_computeUser {nm : String} {el : List ℤ} (us : List UserFun) : Keeps (Book nm el) (computeUser us) := by
  induction us with
  | nil => exact Keeps.pure _
  | cons u us ih => exact Keeps.read fun r => (keeps_register closed_book _).bind fun _ => ih

/-! ## `robot_from_file` -/

variable [Fl]

omit [Fl] in
theorem ok_bind {α β : Type} {x : Act Robot α} {f : α → Act Robot β} {s t : Robot} {b : β} (h : (x >>= f) s = .ok b t) :
    ∃ a s', x s = .ok a s' ∧ f a s' = .ok b t := by
  rw [bind_def] at h
  cases hx : x s <;> rw [hx] at h
  · exact ⟨_, _, rfl, h⟩
  all_goals cases h

/-- A robot that was built has a name accepted by CasADi. -/
theorem robotName_of_with {y : Yaml} (h : Describes y c) {us : List UserFun} {name : String} {r : Robot}
    (e : robotFromFileWith us name (some y) true = .ok r) : RobotName name := by
  have hcon : constructFile (some y) = .ok (robotOf c) := construct_ok h
  unfold robotFromFileWith at e
  rw [hcon] at e
  dsimp only at e
  cases hf : fillRobotWith us name (some y) true (robotOf c) <;> rw [hf] at e
  case ok u r' =>
    unfold fillRobotWith at hf
    rw [bind_ok (modify_run _ _)] at hf
    have h0 : Book name (robotOf c).isEla { robotOf c with name := name } := by
      refine ⟨List.Pairwise.nil, fun f hf => ?_, rfl, rfl, fun f hf => ?_⟩
      · cases hf
      · cases hf
    obtain ⟨v, r₁, e₁, hf⟩ := ok_bind hf
    have b₁ : Res.Post (Book name (robotOf c).isEla) (loadConfPar (some y) true { robotOf c with name := name }) :=
      keeps_loadConfPar argInv_book (fun _ _ _ _ => trivial) _ _ _ h0
    rw [e₁] at b₁
    simp only [if_true] at hf
    obtain ⟨_, r₂, e₂, hf⟩ := ok_bind hf
    have b₂ : Res.Post (Book name (robotOf c).isEla) (initSymb r₁) := keeps_initSymb _ b₁
    rw [e₂] at b₂
    obtain ⟨_, r₃, e₃, hf⟩ := ok_bind hf
    obtain ⟨_, r₄, e₄, -⟩ := ok_bind e₃
    unfold computeChain at e₄
    rw [bind_ok (read_run _)] at e₄
    obtain ⟨g, gs, hg⟩ : ∃ g gs, chainRegs (baseOf r₂) = g :: gs := ⟨_, _, rfl⟩
    rw [hg] at e₄
    obtain ⟨_, r₅, e₅, -⟩ := ok_bind e₄
    unfold register at e₅
    rw [bind_ok (read_run _)] at e₅
    obtain ⟨_, r₆, e₆, e₅⟩ := ok_bind e₅
    have h6 : r₆ = r₂ := by
      split_ifs at e₆
      · exact (Res.ok.inj e₆).2.symm
      · cases e₆
    rw [h6] at e₅
    obtain ⟨v, r₇, e₇, -⟩ := ok_bind e₅
    have := addFunction_name e₇ (.inr rfl)
    rw [show r₂.name = name from b₂.name] at this
    exact robotName_of_check this
  all_goals cases e

theorem robotName_of_ok {y : Yaml} (h : Describes y c) {name : String} {r : Robot} (e : robotFromFile name (some y) true = .ok r) : RobotName name :=
  robotName_of_with (us := []) h e

/-- The state before the user hook, and what remains to be done. -/
theorem fromFileWith_eq {y : Yaml} (h : Describes y c) (hn : 0 < c.n) (ht : Typed c) (us : List UserFun) {name : String} (hnm : RobotName name) :
    ∃ r₃, Run c r₃ (Fn.lib c) ∧ Book name (robotOf c).isEla r₃ ∧ robotFromFileWith us name (some y) true =
      match (computeUser us >>= fun _ => updateSymb) r₃ with
      | .ok _ r' => .ok r'
      | .yaml _ => .exc
      | .exc _ => .exc
      | .ub => .ub := by
  obtain ⟨r₁, r₂, r₃, e₁, e₂, e₃, s₃⟩ := before_user h hn ht hnm
  refine ⟨r₃, s₃, ?_, ?_⟩
  · have h0 : Book name (robotOf c).isEla { robotOf c with name := name } := by
      refine ⟨List.Pairwise.nil, fun f hf => ?_, rfl, rfl, fun f hf => ?_⟩
      · cases hf
      · cases hf
    have b₁ : Res.Post (Book name (robotOf c).isEla) (loadConfPar (some y) true { robotOf c with name := name }) :=
      keeps_loadConfPar argInv_book (fun _ _ _ _ => trivial) _ _ _ h0
    rw [e₁] at b₁
    have b₂ : Res.Post (Book name (robotOf c).isEla) (initSymb r₁) := keeps_initSymb _ b₁
    rw [e₂] at b₂
    have b₃ : Res.Post (Book name (robotOf c).isEla) (computeAll r₂) :=
      ((keeps_kin closed_book).bind fun _ => (keeps_dyn closed_book).bind fun _ => (keeps_regs closed_book).bind fun _ => Keeps.pure _) _ b₂
    rw [e₃] at b₃
    exact b₃
  · have hfill : fillRobotWith us name (some y) true (robotOf c) = (computeUser us >>= fun _ => updateSymb) r₃ := by
      have hall : (computeAll >>= fun _ => computeUser us >>= fun _ => updateSymb) r₂ = (computeUser us >>= fun _ => updateSymb) r₃ := bind_ok e₃
      unfold fillRobotWith
      rw [bind_ok (modify_run _ _), bind_ok e₁]
      simp only [if_true]
      rw [bind_ok e₂, ← hall]
      unfold computeAll
      simp only [act_assoc]
      rfl
    have hcon : constructFile (some y) = .ok (robotOf c) := construct_ok h
    unfold robotFromFileWith
    rw [hcon]
    dsimp only
    rw [hfill]
    cases (computeUser us >>= fun _ => updateSymb) r₃ <;> rfl

theorem fromFileWith_ok {y : Yaml} (h : Describes y c) (hn : 0 < c.n) (ht : Typed c) {us : List UserFun} (hu : UserOk T {f | f ∈ library c} us)
    (hk : ∀ k : Key, T k.str) (hL : ∀ g ∈ Fn.lib c, T g.name ∧ T g.descr) {name : String} {r : Robot}
    (e : robotFromFileWith us name (some y) true = .ok r) :
    Book name (robotOf c).isEla r ∧ r.n = c.n ∧ (∀ f, r.funs.has f = true ↔ f ∈ library c ∨ f ∈ us.map UserFun.name) ∧
      ∀ f, r.funs.has f = true → Spec.Registered r f ∧ UserReg c T r f := by
  obtain ⟨r₃, s₃, b₃, ef⟩ := fromFileWith_eq h hn ht us (robotName_of_with h e)
  rw [ef] at e
  have hpre : Pre c T r₃ := run_pre s₃ (fun g hg => ⟨(Fn.good_lib hn ht g hg).fresh, hL g hg⟩) hk b₃.args
  have hlib : ∀ f, r₃.funs.has f = true ↔ f ∈ library c := by
    intro f
    constructor
    · intro hf
      obtain ⟨g, ⟨F, hv, rfl⟩, rfl⟩ := s₃.only f (b₃.args f hf)
      exact Fn.mem_library_of hv
    · intro hf
      obtain ⟨F, hv, rfl⟩ := Fn.mem_library.1 hf
      obtain ⟨ks, hr⟩ := s₃.reg (F.reg c) ⟨F, hv, rfl⟩
      have := hr.funs
      show (r₃.funs.find F.name).isSome = true
      rw [show r₃.funs.find F.name = _ from this]
      rfl
  have bk : Res.Post (Book name (robotOf c).isEla) ((computeUser us >>= fun _ => updateSymb) r₃) :=
    ((keeps_computeUser us).bind fun _ => keeps_updateSymb) _ b₃
  cases hc : computeUser us r₃ with
  | yaml r₂ => rw [bind_yaml hc] at e; cases e
  | exc r₂ => rw [bind_exc hc] at e; cases e
  | ub => rw [bind_ub hc] at e; cases e
  | ok z r₄ =>
    obtain ⟨j1, j2⟩ := computeUser_ok hu (fun _ h => h) hpre (fun f hf => .inl ((hlib f).1 hf)) (fun s hs => by
      obtain ⟨p, hp, rfl⟩ := List.mem_map.1 (SMap.has_iff.1 hs)
      rw [s₃.symb] at hp
      obtain ⟨k, _, rfl⟩ := key_of_mem_symb hp
      exact .inl ⟨k, rfl⟩) hc
    obtain ⟨r₅, e₅, x₅, f₅⟩ := update_user j1
    have hb : (computeUser us >>= fun _ => updateSymb) r₃ = .ok () r₅ := (bind_ok hc).trans e₅
    rw [hb] at e bk
    obtain rfl : r₅ = r := by simpa using e
    have hfs : r₅.funs = r₄.funs := by rw [x₅]
    refine ⟨bk, ?_, fun f => ?_, fun f hf => f₅ f (by rwa [hfs] at hf)⟩
    · have : r₅.n = r₄.n := by rw [x₅]
      rw [this]; exact j1.n
    · rw [hfs, j2, hlib]
      tauto

/-- The shipped hook. -/
theorem fromFileWith_nil (name : String) (file : Option Yaml) (compute : Bool) : robotFromFileWith [] name file compute = robotFromFile name file compute := rfl

end Robot

end

end Thunder
