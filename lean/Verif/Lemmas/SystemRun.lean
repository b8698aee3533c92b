import Verif.Lemmas.SystemFric
import Verif.Lemmas.Generated

/-!
# What `get` returns on a robot in use
-/

open scoped Classical
open Matrix

namespace Thunder

noncomputable section

open Spec Robot SX

variable [Fl] {y : Yaml} {c : Conf} {s : State c} {r : Robot}

/-! ## Numbers of symbols -/

omit [Fl] in
theorem length_symbolIdx {k : Key} {m : ℕ} (hm : k.size c = m) {f : ℕ → ℤ} (hf : k.flag c = f) : (k.vars c).length = (symbolIdx m f).length := by
  subst hm hf
  exact List.length_map _

omit [Fl] in
theorem vars_symbolIdx {k : Key} {l : List ℕ} (h : (k.vars c).length = l.length) (hl : l ≠ []) : k.vars c ≠ [] :=
  fun e => hl (List.length_eq_zero_iff.1 (by rw [← h, e]; rfl))

omit [Fl] in
theorem length_kinPars (c : Conf) : (Key.DH.vars c ++ Key.W2L.vars c ++ Key.EE.vars c).length = (kinPars c).length := by
  unfold kinPars
  simp only [List.length_append, List.length_map]
  rw [length_symbolIdx (k := .DH) rfl rfl, length_symbolIdx (k := .W2L) rfl rfl, length_symbolIdx (k := .EE) rfl rfl]
  rfl

omit [Fl] in
theorem val_Mm (s : State c) (he : c.elastic = true) : SX.val (env c s) ((base c).MmFun c.ne) c.ne c.ne = gains c.ne 1 0 c.Mm := by
  have h : SX.val (env c s) ((base c).MmFun c.ne) c.ne c.ne = SX.val (env c s) (diagPar (kmod c .Mm) c.ne 1 0) c.ne c.ne := by
    ext a b
    simp only [SX.val_apply, Base.MmFun, diagPar, Nat.mul_one, Nat.add_zero]
    rfl
  rw [h]
  exact env_gains s (k := .Mm) rfl he ((size_Mm he).trans (Nat.mul_one _).symm) Nat.zero_lt_one

/-! ## Exact angles -/

theorem angleOf_exact {f : ℤ} {a : ℝ} (h : f = 0 → snap (Fl.cosF a) = Real.cos a ∧ snap (Fl.sinF a) = Real.sin a) : angleOf f a = cs a := by
  unfold angleOf
  split_ifs with hf
  · obtain ⟨h1, h2⟩ := h hf
    rw [h1, h2]; rfl
  · rfl

/-! ## Reachable states -/

omit [Fl] in
/-- Setting arguments one after the other. -/
theorem after_sets : ∀ (l : List (String × List Num)) (r : Robot), (l.map Prod.fst).Nodup →
    ∃ r', after (l.map fun p => RCall.setArg p.1 p.2) r = some r' ∧ ArgsOnly r r' ∧ (∀ (i : ℕ) p, l[i]? = some p → r'.arg p.1 = p.2) ∧
      ∀ k, k ∉ l.map Prod.fst → r'.arg k = r.arg k
  | [], r, _ => ⟨r, rfl, ArgsOnly.refl r, fun i p h => by simp at h, fun _ _ => rfl⟩
  | p :: l, r, hn => by
    obtain ⟨h1, h2⟩ := List.nodup_cons.1 hn
    obtain ⟨r', e, ho, ha, hb⟩ := after_sets l (r.setArgs p.1 p.2) h2
    refine ⟨r', e, (argsOnly_set _ _ _).trans ho, fun i p' hp => ?_, fun k hk => ?_⟩
    · cases i with
      | zero =>
        obtain rfl : p = p' := by simpa using hp
        rw [hb _ h1, arg_setArgs, if_pos rfl]
      | succ i => exact ha i p' (by simpa using hp)
    · rw [List.map_cons, List.mem_cons, not_or] at hk
      rw [hb k hk.2, arg_setArgs, if_neg fun e => hk.1 e.symm]

/-- The arguments of a state. -/
def argsOf (c : Conf) (s : State c) : List (String × List Num) :=
  [("q", stored s.q), ("dq", stored s.dq), ("ddq", stored s.ddq), ("d3q", stored s.d3q), ("dqr", stored s.dqr), ("ddqr", stored s.ddqr), ("w", stored s.w),
    ("par_DHtable", symbolics (4 * c.n) c.fdh c.dh), ("par_world2L0", symbolics 6 c.fw2l c.w2l), ("par_Ln2EE", symbolics 6 c.fee c.ee),
    ("par_gravity", symbolics 3 c.fg c.g), ("par_DYN", symbolics (10 * c.n) c.fdyn c.dyn), ("par_Dl", symbolics (c.n * c.dlO) c.fdl c.dl),
    ("x", stored s.x), ("dx", stored s.dx), ("ddx", stored s.ddx), ("par_K", symbolics (c.ne * c.kO) c.fK c.K), ("par_D", symbolics (c.ne * c.dO) c.fD c.D),
    ("par_Dm", symbolics (c.ne * c.dmO) c.fDm c.Dm), ("par_Mm", symbolics c.ne c.fMm c.Mm)]

omit [Fl] in
theorem holds_of {r : Robot} (h : ∀ (i : ℕ) p, (argsOf c s)[i]? = some p → r.arg p.1 = p.2) : Holds c s r where
  q := h 0 _ rfl
  dq := h 1 _ rfl
  ddq := h 2 _ rfl
  d3q := h 3 _ rfl
  dqr := h 4 _ rfl
  ddqr := h 5 _ rfl
  w := h 6 _ rfl
  DH := h 7 _ rfl
  W2L := h 8 _ rfl
  EE := h 9 _ rfl
  grav := h 10 _ rfl
  DYN := h 11 _ rfl
  Dl := fun _ => h 12 _ rfl
  x := fun _ => h 13 _ rfl
  dx := fun _ => h 14 _ rfl
  ddx := fun _ => h 15 _ rfl
  K := fun _ => h 16 _ rfl
  D := fun _ => h 17 _ rfl
  Dm := fun _ => h 18 _ rfl
  Mm := fun _ => h 19 _ rfl

omit [Fl] in
theorem retuned_refl (c : Conf) : Retuned c c :=
  ⟨rfl, rfl, rfl, rfl, rfl, rfl, rfl, rfl, rfl, rfl, rfl, rfl, rfl, rfl, rfl, rfl, fun _ _ => rfl, fun _ _ => rfl, fun _ _ => rfl, fun _ _ => rfl, fun _ _ => rfl,
    fun _ _ => rfl, fun _ _ => rfl, fun _ _ => rfl, fun _ _ => rfl, fun _ _ => rfl⟩

/-- All variables zero. -/
def State.zero (c : Conf) : State c := ⟨0, 0, 0, 0, 0, 0, 0, 0, 0, 0⟩

omit [Fl] in
theorem holds_zero {r : Robot} (h : ∀ k : Key, r.arg k.str = kept c k) : Holds c (State.zero c) r := by
  have hv : ∀ (k : Key), k.isVar = true → ∀ m, k.size c = m → r.arg k.str = stored (0 : Fin m → ℝ) := by
    rintro k hk m rfl
    rw [h k]
    unfold kept stored Key.idx
    rw [List.filter_eq_self.2 fun i _ => by rw [Key.flag_var hk]; rfl]
    refine List.ext_getElem? fun i => ?_
    by_cases hi : i < k.size c
    · simp [hi, Key.val_var hk]
    · simp [hi]
  have hp : ∀ (k : Key) {m : ℕ}, k.size c = m → r.arg k.str = symbolics m (k.flag c) (k.val c) := by
    rintro k m rfl
    exact h k
  exact {
    q := hv .q rfl _ rfl, dq := hv .dq rfl _ rfl, ddq := hv .ddq rfl _ rfl, d3q := hv .d3q rfl _ rfl, dqr := hv .dqr rfl _ rfl, ddqr := hv .ddqr rfl _ rfl
    w := hv .w rfl _ rfl
    DH := hp .DH (Nat.mul_comm _ _), W2L := hp .W2L rfl, EE := hp .EE rfl, grav := hp .grav rfl, DYN := hp .DYN (Nat.mul_comm _ _)
    Dl := fun _ => hp .Dl rfl
    x := fun he => hv .x rfl _ (size_x he), dx := fun he => hv .dx rfl _ (size_dx he), ddx := fun he => hv .ddx rfl _ (size_ddx he)
    K := fun he => hp .K (size_K he), D := fun he => hp .D (size_D he), Dm := fun he => hp .Dm (size_Dm he), Mm := fun he => hp .Mm (size_Mm he) }

/-- From a robot just built from a file any values of the variables and of the symbolic parameters can be reached. -/
theorem running_reach {c₀ : Conf} (h : Describes y c₀) (hj : JointsOk c₀) (hc : Retuned c₀ c) (s : State c) {name : String} {r₀ : Robot}
    (e : robotFromFile name (some y) true = .ok r₀) : ∃ r, ArgsOnly r₀ r ∧ Running y c s r := by
  obtain ⟨r, ea, ho, hh, -⟩ := after_sets (argsOf c s) r₀ (by simp only [argsOf, List.map_cons, List.map_nil]; decide)
  refine ⟨r, ho, ⟨c₀, h, hj, hc⟩, ⟨name, r₀, _, e, fun x hx => ?_, ea⟩, holds_of hh⟩
  obtain ⟨p, -, rfl⟩ := List.mem_map.1 hx
  trivial

/-! ## The generated class -/

omit [Fl] in
/-- The members hold the values of a robot with the same values. -/
theorem Spec.Stores.holds {o : Wrap.Obj} (h : Stores c s o) (hr : Holds c s r) {k : Key} (hh : k.here c) (h4 : k ≠ .d4q) (hx : k ≠ .ddxr) :
    Wrap.Holds c r o k := by
  cases hk : k.isVar with
  | true =>
    have hv : o.vec k.field = r.arg k.str := by
      cases k <;> first | contradiction | (cases hk; done) | skip
      · exact h.q.trans hr.q.symm
      · exact h.dq.trans hr.dq.symm
      · exact h.ddq.trans hr.ddq.symm
      · exact h.d3q.trans hr.d3q.symm
      · exact h.dqr.trans hr.dqr.symm
      · exact h.ddqr.trans hr.ddqr.symm
      · exact h.w.trans hr.w.symm
      · exact (h.x hh).trans (hr.x hh).symm
      · exact (h.dx hh).trans (hr.dx hh).symm
      · exact (h.ddx hh).trans (hr.ddx hh).symm
    have hl : (r.arg k.str).length = (k.vars c).length := by
      rw [hr.var hk hh h4 hx, kept_var hk, List.length_map]
    exact ⟨hl, by rw [hv, ← hl, List.take_length]⟩
  | false =>
    have hp : r.arg k.str <+: o.vec k.field := by
      cases k <;> first | (cases hk; done) | skip
      · exact hr.DYN ▸ h.DYN
      · exact hr.Dl hh ▸ h.Dl hh
      · exact hr.K hh ▸ h.K hh
      · exact hr.D hh ▸ h.D hh
      · exact hr.Dm hh ▸ h.Dm hh
      · exact hr.Mm hh ▸ h.Mm hh
      · exact hr.DH ▸ h.DH
      · exact hr.W2L ▸ h.W2L
      · exact hr.EE ▸ h.EE
      · exact hr.grav ▸ h.grav
    have hl : (r.arg k.str).length = (k.vars c).length := by
      rw [hr.par hk hh, Wrap.length_kept]
    exact ⟨hl, by rw [← hl]; exact (List.prefix_iff_eq_take.1 hp).symm⟩

/-- The getters answer what `get` answers. -/
theorem Spec.Generated.same {g : Robot} {o : Wrap.Obj} (h : Generated y c s g o) (ho : ArgsOnly g r) (hr : Running y c s r) {f : Fn} (hf : f.Valid c) :
    ∃ mat, answers r f.name mat ∧ classAnswers g o f.name mat := by
  obtain ⟨c₀, hd, hj, hc⟩ := hr.file
  have L := live_of hd hj hr.use hc hr.args
  obtain ⟨ks, H⟩ := L.reg (f.reg c) ⟨f, hf, rfl⟩
  have hks : ∀ k ∈ ks, k ≠ .d4q ∧ k ≠ .ddxr := by
    obtain ⟨su, po, h1, h2, rfl⟩ := H.keys
    have inj : Function.Injective Key.str := fun a b => Key.str_inj
    obtain rfl : su = f.sure := List.map_injective_iff.2 inj h1.symm
    obtain rfl : po = f.pos c.n := List.map_injective_iff.2 inj h2.symm
    intro k hk
    refine (Fn.here_keys hf k ?_).2
    rcases List.mem_append.1 hk with hk | hk
    · exact List.mem_append_left _ hk
    · exact List.mem_append_right _ (List.mem_filter.1 hk).1
  obtain ⟨m, r', e2, e3⟩ := Wrap.getter_eq H (s := o) fun k hk => h.members.holds hr.args (H.here k hk) (hks k hk).1 (hks k hk).2
  refine ⟨m, ⟨r', e2⟩, ?_⟩
  unfold classAnswers
  rw [← Wrap.getter_args ho]
  exact e3

/-- The answers of the generated class. -/
theorem Spec.Generated.gives {g : Robot} {o : Wrap.Obj} (h : Generated y c s g o) {f : Fn} (hf : f.Valid c) :
    Returns (classAnswers g o) f.name (SX.val (env c s) (f.expr (base c) c) (f.rows c) (f.cols c)) := by
  obtain ⟨c₀, hd, hj, hc⟩ := h.file
  obtain ⟨name, e⟩ := h.gen
  obtain ⟨r, ho, hr⟩ := running_reach hd hj hc s e
  have hjc := hc.joints hj
  obtain ⟨mat, ⟨r', e1⟩, hm⟩ := returns_fn hjc.1 (typed_of hjc) (live_of hd hj hr.use hc hr.args) hr.args hf
  obtain ⟨m', ⟨r'', e2⟩, e3⟩ := h.same ho hr hf
  rw [e1] at e2
  cases e2
  exact ⟨mat, e3, hm⟩

/-! ## What is answered -/

section

variable {R : String → Mat → Prop} (h : Source y c s R)
include h

theorem Spec.Source.file : ∃ c₀, Describes y c₀ ∧ JointsOk c₀ ∧ Retuned c₀ c := by
  cases h with
  | robot h => exact h.file
  | generated h => exact h.file

theorem Spec.Source.pos : 0 < c.n := by
  obtain ⟨c₀, -, hj, hc⟩ := h.file
  exact (hc.joints hj).1

theorem Spec.Source.typed : Typed c := by
  obtain ⟨c₀, -, hj, hc⟩ := h.file
  exact typed_of (hc.joints hj)

theorem Spec.Source.gives (f : Fn) (hf : f.Valid c) {nm : String} (hm : f.name = nm) {m n : ℕ} (h1 : f.rows c = m) (h2 : f.cols c = n)
    {A : Matrix (Fin m) (Fin n) ℝ} (hA : SX.val (env c s) (f.expr (base c) c) m n = A) : Returns R nm A := by
  have hp := h.pos
  have ht := h.typed
  subst h1 h2 hm hA
  cases h with
  | robot h =>
    obtain ⟨c₀, hd, hj, hc⟩ := h.file
    exact returns_fn hp ht (live_of hd hj h.use hc h.args) h.args hf
  | generated h => exact h.gives hf

theorem Spec.Source.givesVec (f : Fn) (hf : f.Valid c) {nm : String} (hm : f.name = nm) {m : ℕ} (h1 : f.rows c = m) (h2 : f.cols c = 1)
    {v : Fin m → ℝ} (hv : SX.vec (env c s) (f.expr (base c) c) m = v) : ReturnsVec R nm v := by
  subst hv
  refine h.gives f hf hm h1 h2 ?_
  ext i j
  obtain rfl : j = 0 := Subsingleton.elim _ _
  rfl

end

end

end Thunder
