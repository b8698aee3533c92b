import Verif.Lemmas.SystemRun

/-!
# Objects of the generated class: which states can be reached
-/

open scoped Classical

namespace Thunder

noncomputable section

open Spec Robot Wrap

variable {c c₀ : Conf} {s : State c} {r : Robot} {o : Obj}

namespace Wrap

/-- The setter of a member. -/
def callFor (v : List Num) : Key → Call
  | .q => .setVar .q v | .dq => .setVar .dq v | .ddq => .setVar .ddq v | .d3q => .setVar .d3q v | .d4q => .setVar .d4q v
  | .dqr => .setVar .dqr v | .ddqr => .setVar .ddqr v | .w => .setVar .w v
  | .x => .setVar .x v | .dx => .setVar .dx v | .ddx => .setVar .ddx v | .ddxr => .setVar .ddxr v
  | .DYN => .setDYN v false | .Dl => .setPar .Dl v | .K => .setPar .K v | .D => .setPar .D v | .Dm => .setPar .Dm v | .Mm => .setPar .Mm v
  | .DH => .setDH 1 v | .W2L => .setPar .W2L v | .EE => .setPar .EE v | .grav => .setPar .G v

theorem run_setVar {cf : Cfg} {f : VarField} {v : List Num} (h : v.length = f.expected cf) (o : Obj) :
    (Call.setVar f v).run cf o = some (o.set f.field v) := by
  show (setVar cf f v o).caught = _
  unfold setVar
  rw [if_pos h]
  rfl

theorem run_setPar {cf : Cfg} {f : ParField} {v : List Num} {o : Obj} (h : v.length = (o.vec f.field).length) :
    (Call.setPar f v).run cf o = some (o.set f.field v) := by
  show (Wrap.setPar f v o).caught = _
  unfold Wrap.setPar
  rw [if_pos h]
  rfl

theorem run_setDH {cf : Cfg} {v : List Num} {o : Obj} (h : v.length = (o.vec .DH).length) : (Call.setDH 1 v).run cf o = some (o.set .DH v) := by
  show (Wrap.setDH 1 v o).caught = _
  unfold Wrap.setDH
  rw [if_pos h]
  rfl

theorem run_setDYN' {cf : Cfg} {v : List Num} {o : Obj} (h : v.length = (o.vec .DYN).length) : (Call.setDYN v false).run cf o = some (o.set .DYN v) := by
  show (Wrap.setDYN cf v false o).caught = _
  unfold Wrap.setDYN
  rw [if_pos h]
  rfl

theorem run_callFor {cf : Cfg} {o : Obj} (k : Key) {v : List Num} (h : v.length = (o.vec k.field).length)
    (hv : k.isVar = true → v.length = cf.size k.field) : (callFor v k).run cf o = some (o.set k.field v) := by
  cases k <;> first
    | exact run_setVar (hv rfl) o
    | exact run_setPar h
    | exact run_setDH h
    | exact run_setDYN' h

/-- Setting members one after the other. -/
theorem runAll_sets {cf : Cfg} (val : Key → List Num) : ∀ (l : List Key) (o : Obj), l.Nodup →
    (∀ k ∈ l, (val k).length = (o.vec k.field).length ∧ (k.isVar = true → (val k).length = cf.size k.field)) →
    ∃ o', runAll cf (l.map fun k => callFor (val k) k) o = some o' ∧ ∀ k : Key, o'.vec k.field = if k ∈ l then val k else o.vec k.field
  | [], o, _, _ => ⟨o, rfl, fun k => by simp⟩
  | k :: l, o, hn, hl => by
    obtain ⟨h1, h2⟩ := List.nodup_cons.1 hn
    have hk := hl k List.mem_cons_self
    have hvec : ∀ k' : Key, k' ≠ k → (o.set k.field (val k)).vec k'.field = o.vec k'.field := fun k' hne =>
      set_vec_ne _ _ fun e => hne (field_inj e)
    obtain ⟨o', e, ho⟩ := runAll_sets val l (o.set k.field (val k)) h2 fun k' hk' => by
      rw [hvec k' fun e => h1 (e ▸ hk')]
      exact hl k' (List.mem_cons_of_mem _ hk')
    refine ⟨o', ?_, fun k' => ?_⟩
    · rw [List.map_cons, runAll, run_callFor k hk.1 hk.2]
      exact e
    · rw [ho k']
      by_cases e1 : k' ∈ l
      · rw [if_pos e1, if_pos (List.mem_cons_of_mem _ e1)]
      · rw [if_neg e1]
        by_cases e2 : k' = k
        · subst e2
          rw [if_pos List.mem_cons_self, set_vec_same]
        · rw [if_neg (by rw [List.mem_cons, not_or]; exact ⟨e2, e1⟩), hvec k' e2]

theorem size_field {k : Key} (hh : k.here c) : (cfg c).size k.field = k.size c := by
  cases k <;> first
    | rfl
    | exact Nat.mul_comm _ _
    | (have he : c.elastic = true := hh
       simp [Key.field, Key.size, Cfg.size, cfg, he, Nat.mul_comm])

theorem length_vars_le (k : Key) : (k.vars c).length ≤ k.size c := by
  unfold Key.vars Key.idx
  rw [List.length_map]
  exact (List.length_filter_le _ _).trans (by simp)

/-- After the file has been loaded the members are long enough. -/
theorem Loaded.room (h : Loaded c o) (hs : Sized (cfg c) o) {k : Key} (hh : k.here c) : (k.vars c).length ≤ (o.vec k.field).length := by
  have hk : ∀ {v : List Num} {k : Key}, (v = kept c k ∨ kept c k = []) → (k.vars c).length ≤ v.length := by
    rintro v k (rfl | h)
    · rw [length_kept]
    · rw [← length_kept, h]; exact Nat.zero_le _
  by_cases hc : k.field.Compacted
  · cases k <;> first | (exact absurd hc id) | skip
    · exact hk (.inl h.dh)
    · exact hk (.inl h.w2l)
    · exact hk (.inl h.ee)
    · exact hk h.grav
  · rw [hs _ hc, size_field hh]
    exact length_vars_le k

end Wrap

/-! ## States -/

/-- The members that are used. -/
def settable (c : Conf) : List Key := Key.all.filter fun k => k.here c ∧ k ≠ .d4q ∧ k ≠ .ddxr

theorem mem_settable {k : Key} : k ∈ settable c ↔ k.here c ∧ k ≠ .d4q ∧ k ≠ .ddxr := by
  unfold settable
  rw [List.mem_filter, decide_eq_true_eq]
  exact ⟨fun h => h.2, fun h => ⟨Key.mem_all k, h⟩⟩

/-- The members begin with the arguments of a robot. -/
theorem stores_of (hr : Holds c s r) (hv : ∀ k ∈ settable c, k.isVar = true → o.vec k.field = r.arg k.str)
    (hp : ∀ k ∈ settable c, k.isVar = false → r.arg k.str <+: o.vec k.field) : Stores c s o :=
  have m : ∀ {k : Key}, k.here c → k ≠ .d4q → k ≠ .ddxr → k ∈ settable c := fun h1 h2 h3 => mem_settable.2 ⟨h1, h2, h3⟩
  { q := (hv .q (m trivial (by decide) (by decide)) rfl).trans hr.q
    dq := (hv .dq (m trivial (by decide) (by decide)) rfl).trans hr.dq
    ddq := (hv .ddq (m trivial (by decide) (by decide)) rfl).trans hr.ddq
    d3q := (hv .d3q (m trivial (by decide) (by decide)) rfl).trans hr.d3q
    dqr := (hv .dqr (m trivial (by decide) (by decide)) rfl).trans hr.dqr
    ddqr := (hv .ddqr (m trivial (by decide) (by decide)) rfl).trans hr.ddqr
    w := (hv .w (m trivial (by decide) (by decide)) rfl).trans hr.w
    DH := hr.DH ▸ hp .DH (m trivial (by decide) (by decide)) rfl
    W2L := hr.W2L ▸ hp .W2L (m trivial (by decide) (by decide)) rfl
    EE := hr.EE ▸ hp .EE (m trivial (by decide) (by decide)) rfl
    grav := hr.grav ▸ hp .grav (m trivial (by decide) (by decide)) rfl
    DYN := hr.DYN ▸ hp .DYN (m trivial (by decide) (by decide)) rfl
    Dl := fun h => hr.Dl h ▸ hp .Dl (m h (by decide) (by decide)) rfl
    x := fun h => (hv .x (m h (by decide) (by decide)) rfl).trans (hr.x h)
    dx := fun h => (hv .dx (m h (by decide) (by decide)) rfl).trans (hr.dx h)
    ddx := fun h => (hv .ddx (m h (by decide) (by decide)) rfl).trans (hr.ddx h)
    K := fun h => hr.K h ▸ hp .K (m h (by decide) (by decide)) rfl
    D := fun h => hr.D h ▸ hp .D (m h (by decide) (by decide)) rfl
    Dm := fun h => hr.Dm h ▸ hp .Dm (m h (by decide) (by decide)) rfl
    Mm := fun h => hr.Mm h ▸ hp .Mm (m h (by decide) (by decide)) rfl }

/-- What the members should be, given what they are. -/
def wanted (c : Conf) (r : Robot) (o : Obj) (k : Key) : List Num := r.arg k.str ++ (o.vec k.field).drop (k.vars c).length

/-- From an object into which a file has been loaded any values can be reached. -/
theorem stores_reach (hc : Retuned c₀ c) (hr : Holds c s r) (hl : Loaded c₀ o) (hs : Sized (cfg c₀) o) :
    ∃ l o', runAll (cfg c₀) l o = some o' ∧ Stores c s o' := by
  have hlen : ∀ k ∈ settable c, (r.arg k.str).length = (k.vars c).length := by
    intro k hk
    obtain ⟨hh, h4, hx⟩ := mem_settable.1 hk
    cases hv : k.isVar with
    | true => rw [hr.var hv hh h4 hx, kept_var hv, List.length_map]
    | false => rw [hr.par hv hh, length_kept]
  have hroom : ∀ k ∈ settable c, (k.vars c).length ≤ (o.vec k.field).length := by
    intro k hk
    have hh := (mem_settable.1 hk).1
    rw [hc.here] at hh
    rw [hc.vars]
    exact hl.room hs hh
  have hsz : ∀ k ∈ settable c, k.isVar = true → (o.vec k.field).length = (k.vars c).length ∧ (o.vec k.field).length = (cfg c₀).size k.field := by
    intro k hk hv
    have hh := (mem_settable.1 hk).1
    rw [hc.here] at hh
    have hnc : ¬ k.field.Compacted := by cases k <;> first | exact id | cases hv
    have := hs _ hnc
    exact ⟨this.trans (by rw [hc.vars]; exact size_var hv hh), this⟩
  have hw : ∀ k ∈ settable c, (wanted c r o k).length = (o.vec k.field).length := by
    intro k hk
    unfold wanted
    rw [List.length_append, List.length_drop, hlen k hk]
    have := hroom k hk
    omega
  have hnd : (settable c).Nodup := List.Nodup.filter _ (by decide)
  obtain ⟨o', e, ho⟩ := runAll_sets (cf := cfg c₀) (wanted c r o) (settable c) o hnd fun k hk =>
    ⟨hw k hk, fun hv => (hw k hk).trans (hsz k hk hv).2⟩
  have key : ∀ k ∈ settable c, o'.vec k.field = wanted c r o k := fun k hk => by rw [ho, if_pos hk]
  have hvar : ∀ k ∈ settable c, k.isVar = true → o'.vec k.field = r.arg k.str := by
    intro k hk hv
    rw [key k hk]
    unfold wanted
    rw [List.drop_eq_nil_of_le (hsz k hk hv).1.le, List.append_nil]
  have hpar : ∀ k ∈ settable c, r.arg k.str <+: o'.vec k.field := fun k hk => by
    rw [key k hk]
    exact List.prefix_append _ _
  exact ⟨_, o', e, stores_of hr hvar fun k hk _ => hpar k hk⟩

/-- After loading a file whose symbolic parameters come first. -/
theorem Wrap.Loaded.stores {c : Conf} {s : State c} {o : Obj} (h : Loaded c o) (ha : Aligned c) (hm : Moves c s o) : Stores c s o := by
  have key : ∀ (k : Key) {m : ℕ} {f : ℕ → ℤ} {v : ℕ → ℝ}, k.isVar = false → k.here c → k.size c = m → k.flag c = f → k.val c = v →
      symbolics m f v <+: o.vec k.field := fun k _ _ _ hk hh h1 h2 h3 => by
    rw [symbolics_eq h1 h2 h3, ← h.take ha hk hh]
    exact List.take_prefix _ _
  exact { hm with
    DH := key .DH rfl trivial (Nat.mul_comm _ _) rfl rfl
    W2L := key .W2L rfl trivial rfl rfl rfl
    EE := key .EE rfl trivial rfl rfl rfl
    grav := key .grav rfl trivial rfl rfl rfl
    DYN := key .DYN rfl trivial (Nat.mul_comm _ _) rfl rfl
    Dl := fun hh => key .Dl rfl hh rfl rfl rfl
    K := fun hh => key .K rfl hh (if_pos hh) rfl rfl
    D := fun hh => key .D rfl hh (if_pos hh) rfl rfl
    Dm := fun hh => key .Dm rfl hh (if_pos hh) rfl rfl
    Mm := fun hh => key .Mm rfl hh (if_pos hh) rfl rfl }

/-- The variables after a sequence of steps. -/
theorem Wrap.Pair.vec [Fl] {y : Yaml} {c : Conf} (h : Describes y c) (f : VarField) : ∀ (l : List Step) {r : Robot} {o o' : Obj}, Pair c r o →
    (∀ st ∈ l, st.Fits c) → runAll (cfg c) (l.map (Step.onClass y)) o = some o' →
    o'.vec f.field = l.foldl (fun v st => match st with | .set f' v' => if f' = f then v' else v | .load _ => v) (o.vec f.field)
  | [], r, o, o', _, _, e => by cases e; rfl
  | st :: l, r, o, o', p, hf, e => by
    obtain ⟨r1, s1, -, -, g1, p1, -, -⟩ := p.step h (hf st List.mem_cons_self)
    rw [List.map_cons, runAll, g1] at e
    rw [Wrap.Pair.vec h f l p1 (fun x hx => hf x (List.mem_cons_of_mem _ hx)) e, List.foldl_cons]
    congr 1
    cases st with
    | set f' v =>
      have hv : v.length = f'.expected (cfg c) := by rw [← components_eq]; exact hf _ List.mem_cons_self
      have g1' := run_setVar hv o
      simp only [Step.onClass] at g1
      rw [g1'] at g1
      cases g1
      simp only
      split_ifs with e
      · subst e; rw [set_vec_same]
      · refine set_vec_ne _ _ fun e' => e ?_
        rw [← varKey_field, ← varKey_field] at e'
        have := field_inj e'
        revert this
        cases f <;> cases f' <;> simp [varKey]
    | load u =>
      obtain ⟨s1', e1, -, -, -, hv⟩ := loadConf_ok h u p.sized p.symbs
      simp only [Step.onClass, Call.run] at g1
      rw [e1] at g1
      cases g1
      have := hv (varKey f) (varKey_isVar f)
      rwa [varKey_field] at this

end

end Thunder
