import Verif.Lemmas.FnRel

/-!
# Every function of the library can be registered
-/

open scoped Classical

namespace Thunder

noncomputable section

open Spec SX

variable {c : Conf}

theorem kmod_here {k : Key} (h : k.here c) : kmod c k = k.mat c := if_pos h

theorem over_mat {k : Key} {ks : List Key} (hk : k ∈ ks) : SX.Over (Robot.keySet c ks) (k.mat c) := by
  intro i j v hv
  simp only [Key.mat] at hv
  split_ifs at hv with h
  · simp [Expr.fv] at hv
  · simp only [Key.symMat, SX.sym] at hv
    split_ifs at hv with h'
    · simp only [Expr.fv, Set.mem_singleton_iff] at hv
      subst hv
      exact ⟨k, hk, Key.mem_vars.2 ⟨rfl, h'.1, fun h0 => h ⟨h'.1, h'.2, h0⟩⟩⟩
    · simp [Expr.fv] at hv

theorem rel_key {P : Var → Option ℝ} {k : Key} {ks : List Key} (hk : k ∈ ks) (h : k.here c) :
    Rel P (Robot.keySet c ks) (k.size c) 1 (kmod c k) (kmod c k) := by
  rw [kmod_here h]
  exact Rel.self trivial rfl rfl (over_mat hk)

/-- All joints are of a known type. -/
def Typed (c : Conf) : Prop := ∀ t ∈ c.types, isP t ∨ isR t

theorem base_at {k : Key} (h1 : k ≠ .d4q) (h2 : k ≠ .ddxr) : (base c).at k = kmod c k := by cases k <;> first | rfl | contradiction

theorem kmod_var {k : Key} (h : k.here c) (hv : k.isVar = true) : kmod c k = SX.sym k.sym (k.size c) := by rw [kmod_here h, Key.mat_var hv]

theorem ty_mem {i : ℕ} (hi : i < c.n) : (base c).ty i ∈ c.types := by
  unfold Base.ty
  show c.types.getD i _ ∈ _
  rw [List.getD_eq_getElem?_getD, List.getElem?_eq_getElem hi]
  exact List.getElem_mem _

theorem base_x (he : c.elastic = true) : (base c).x = SX.sym "x" c.ne := by
  have := kmod_var (c := c) (k := .x) he rfl
  simp only [Key.size, he, if_true] at this
  exact this
theorem base_dx (he : c.elastic = true) : (base c).dx = SX.sym "dx" c.ne := by
  have := kmod_var (c := c) (k := .dx) he rfl
  simp only [Key.size, he, if_true] at this
  exact this
theorem base_ddx (he : c.elastic = true) : (base c).ddx = SX.sym "ddx" c.ne := by
  have := kmod_var (c := c) (k := .ddx) he rfl
  simp only [Key.size, he, if_true] at this
  exact this

variable [Fl]

theorem like_base (hn : 0 < c.n) (ht : Typed c) : Base.Like (fun _ => none) (base c) (base c) where
  npos := hn
  n := rfl
  types := rfl
  tyOk := fun _ hi => ht _ (ty_mem hi)
  q := kmod_var (k := .q) trivial rfl
  dq := kmod_var (k := .dq) trivial rfl
  ddq := kmod_var (k := .ddq) trivial rfl
  d3q := kmod_var (k := .d3q) trivial rfl
  dqr := kmod_var (k := .dqr) trivial rfl
  ddqr := kmod_var (k := .ddqr) trivial rfl
  w := kmod_var (k := .w) trivial rfl
  q' := rfl
  dq' := rfl
  ddq' := rfl
  d3q' := rfl
  dqr' := rfl
  ddqr' := rfl
  w' := rfl
  free := fun _ _ => rfl
  alpha := fun _ _ => Ang.refl _
  theta := fun _ _ => Ang.refl _
  angW := fun _ _ _ => Ang.refl _
  angE := fun _ _ _ => Ang.refl _

namespace Fn

omit [Fl] in
theorem elastic_of_vars {k : Key} (h : k.vars c ≠ []) : k.here c := by
  by_contra hh
  apply h
  simp [Key.vars, Key.idx, Key.size_of_not_here hh]

omit [Fl] in
theorem valid_K (h : regK.Valid c) : c.elastic = true := elastic_of_vars (k := .K) h
omit [Fl] in
theorem valid_D (h : regD.Valid c) : c.elastic = true := elastic_of_vars (k := .D) h
omit [Fl] in
theorem valid_Dm (h : regDm.Valid c) : c.elastic = true := elastic_of_vars (k := .Dm) h
omit [Fl] in
theorem valid_Mm (h : regMm.Valid c) : c.elastic = true := elastic_of_vars (k := .Mm) h
omit [Fl] in
theorem valid_Dl (h : regDl.Valid c) : 0 < c.dlO := elastic_of_vars (k := .Dl) h

omit [Fl] in
/-- The vectors used exist. -/
theorem here_keys {f : Fn} (hv : f.Valid c) : ∀ k ∈ f.sure ++ f.pos c.n, k.here c ∧ k ≠ .d4q ∧ k ≠ .ddxr := by
  have h1 := valid_K (c := c)
  have h2 := valid_D (c := c)
  have h3 := valid_Dm (c := c)
  have h4 := valid_Mm (c := c)
  cases f <;> intro k hk <;>
    simp only [sure, pos, List.mem_append, List.mem_cons, List.not_mem_nil, or_false, false_or] at hk <;>
    simp only [Valid] at hv h1 h2 h3 h4 <;> revert hk <;> (try split_ifs) <;>
    (try simp only [List.mem_cons, List.not_mem_nil, or_false, false_or]) <;> cases k <;> simp [Key.here, *]
  all_goals omega

omit [Fl] in
theorem nodup_keys (f : Fn) (n : ℕ) : (f.sure ++ f.pos n).Nodup := by
  cases f <;> simp only [sure, pos] <;> (try split_ifs) <;> decide

/-- The expression of a function of the library. -/
theorem rel_self (hn : 0 < c.n) (ht : Typed c) {f : Fn} (hv : f.Valid c) :
    Rel (fun _ => none) (Robot.keySet c (f.sure ++ f.pos c.n)) (f.rows c) (f.cols c) (f.expr (base c) c) (f.expr (base c) c) := by
  have key : ∀ k ∈ f.sure ++ f.pos c.n, Rel (fun _ => none) (Robot.keySet c (f.sure ++ f.pos c.n)) (k.size c) 1 ((base c).at k) ((base c).at k) := by
    intro k hk
    obtain ⟨h1, h2, h3⟩ := here_keys hv k hk
    rw [base_at h2 h3]
    exact rel_key hk h1
  have L := like_base hn ht
  by_cases hr : f.isReg = false
  · exact rel L rfl f hv hr key
  have par : ∀ k : Key, k.here c → ParSym k.sym (k.size c) (kmod c k) (k.flags c) := fun k hk => by rw [kmod_here hk]; exact k.parSym
  have len : ∀ k : Key, (Spec.symIdx (k.flags c) (k.size c)).length = (k.vars c).length := fun k => by rw [Key.symIdx_flags, Key.vars, List.length_map]
  have hq := L.q
  have hkin : (Key.DH.vars c ++ Key.W2L.vars c ++ Key.EE.vars c).length = ((base c).kinPar (Key.DH.flags c) (Key.W2L.flags c) (Key.EE.flags c)).rows := by
    unfold Base.kinPar
    simp only [SX.ofList, base]
    rw [symbPar_eq (par .DH trivial), symbPar_eq (par .W2L trivial), symbPar_eq (par .EE trivial)]
    simp only [List.length_append, List.length_map, len]
  have hne := ne_le c
  cases f <;> first | exact absurd rfl hr | skip
  all_goals
    simp only [sure, pos, List.cons_append, List.nil_append, List.mem_cons, List.not_mem_nil, or_false, forall_eq_or_imp, forall_eq, Base.at] at key
  all_goals simp only [rows, cols, expr]
  case regJdq =>
    have K : Base.Kin (fun _ => none) _ (base c) (base c) := ⟨L, varIn_of_rel (by rw [hq] at key; exact key.1), key.2.2.1, key.2.2.2.1⟩
    rw [hkin]
    exact K.regJdq key.2.2.2.2 (varIn_of_rel (by rw [L.dq] at key; exact key.2.1)) (par .DH trivial) (par .W2L trivial) (par .EE trivial)
  case regJTw =>
    have K : Base.Kin (fun _ => none) _ (base c) (base c) := ⟨L, varIn_of_rel (by rw [hq] at key; exact key.1), key.2.2.1, key.2.2.2.1⟩
    rw [hkin]
    have := K.regJTw key.2.2.2.2 (varIn_of_rel (by rw [L.w] at key; exact key.2.1)) (par .DH trivial) (par .W2L trivial) (par .EE trivial)
    rw [Nat.mul_one] at this
    exact this
  case regDl =>
    rw [← len]
    exact Base.rel_regDl L.dq (varIn_of_rel (by rw [L.dq] at key; exact key)) (par .Dl (valid_Dl hv))
  case regK =>
    have he := valid_K hv
    have hp := par .K he
    rw [← len]
    simp only [Key.size, he, if_true] at hp key ⊢
    exact Base.rel_regK hq (base_x he) hne
      (varIn_of_rel (by rw [hq] at key; exact key.1))
      (varIn_of_rel (by rw [base_x he] at key; exact key.2)) hp
  case regD =>
    have he := valid_D hv
    have hp := par .D he
    rw [← len]
    simp only [Key.size, he, if_true] at hp key ⊢
    exact Base.rel_regD L.dq (base_dx he) hne
      (varIn_of_rel (by rw [L.dq] at key; exact key.1))
      (varIn_of_rel (by rw [base_dx he] at key; exact key.2)) hp
  case regDm =>
    have he := valid_Dm hv
    have hp := par .Dm he
    rw [← len]
    simp only [Key.size, he, if_true] at hp key ⊢
    exact Base.rel_regDm (base_dx he)
      (varIn_of_rel (by rw [base_dx he] at key; exact key)) hp
  case regMm =>
    have he := valid_Mm hv
    have hp := par .Mm he
    rw [← len]
    simp only [Key.size, he, if_true] at hp key ⊢
    exact Base.rel_regMm (base_ddx he)
      (varIn_of_rel (by rw [base_ddx he] at key; exact key)) hp

omit [Fl] in
theorem part (f : Fn) : FunName f.name := by
  have h1 : ∀ s : Stem, (s.str.toList.all fun x => x.isAlphanum || x == '_') = true ∧ ¬ ['_', '_'] <:+: s.str.toList ∧ s.str.toList.head? ≠ some '_' ∧
      s.str.toList ≠ [] := by intro s; cases s <;> decide
  obtain ⟨a1, a2, a3, a4⟩ := h1 f.stem
  rw [List.all_eq_true] at a1
  have a1 : ∀ x ∈ f.stem.str.toList, x.isAlphanum = true ∨ x = '_' := fun x hx => by simpa using a1 x hx
  have hd : ∀ i : ℕ, (toString i).toList ≠ [] ∧ ∀ x ∈ (toString i).toList, x.isDigit = true := fun i => by
    simp only [Nat.toString_eq_repr, Nat.repr_eq_ofList_toDigits, String.toList_ofList]
    exact ⟨Nat.toDigits_ne_nil, fun x hx => Nat.isDigit_of_mem_toDigits (by omega) (by omega) hx⟩
  cases hn : f.num with
  | none =>
    have e : f.name = f.stem.str := by unfold name; rw [hn]; exact String.append_empty
    have h2 : f.stem.str.toList.getLast? ≠ some '_' := by cases f <;> first | decide | cases hn
    rw [e.symm] at a1 a2 a3 a4 h2
    exact ⟨a1, a2, a3, h2, a4⟩
  | some i =>
    have e : f.name.toList = f.stem.str.toList ++ (toString i).toList := by unfold name; rw [hn, String.toList_append]
    obtain ⟨d1, d2⟩ := hd i
    have hu : ('_').isDigit ≠ true := by decide
    refine ⟨fun x hx => ?_, fun hi => ?_, ?_, fun hl => ?_, ?_⟩
    · rw [e] at hx
      rcases List.mem_append.1 hx with hx | hx
      · exact a1 x hx
      · exact .inl (by unfold Char.isAlphanum; rw [d2 x hx, Bool.or_true])
    · rw [e] at hi
      rcases infix_append.1 hi with hi | ⟨-, hi⟩ | hi
      · exact a2 hi
      · exact hu (d2 _ (List.mem_of_mem_head? hi))
      · exact hu (d2 _ (hi.subset (by simp)))
    · rw [e, List.head?_append_of_ne_nil _ a4]; exact a3
    · rw [e, List.getLast?_append_of_ne_nil _ d1] at hl
      exact hu (d2 _ (List.mem_of_getLast? hl))
    · rw [e]; simp [a4]

theorem good (hn : 0 < c.n) (ht : Typed c) {f : Fn} (hv : f.Valid c) : Robot.GoodReg c (f.reg c) where
  part := f.part
  ok := (rel_self hn ht hv).ok
  fresh := f.name_ne
  keys := ⟨f.sure, f.pos c.n, rfl, rfl, f.nodup_keys c.n, fun k hk => (here_keys hv k (List.mem_append_left _ hk)).1, (rel_self hn ht hv).over⟩

theorem good_lib (hn : 0 < c.n) (ht : Typed c) : ∀ g ∈ lib c, Robot.GoodReg c g := by
  rintro g ⟨f, hv, rfl⟩
  exact good hn ht hv

end Fn

end

end Thunder
