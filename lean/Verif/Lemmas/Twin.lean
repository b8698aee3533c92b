import Verif.Lemmas.Live

/-!
# Robots that differ in the choice of symbolic parameters
-/

open scoped Classical

namespace Thunder

noncomputable section

open Spec Act Robot SX

variable {c c' : Conf}

namespace Spec.SameValues

variable (h : SameValues c c')
include h

theorem n : c'.n = c.n := by unfold Conf.n; rw [h.types]
theorem ne : c'.ne = c.ne := by unfold Conf.ne; rw [h.types]
theorem size (k : Key) : k.size c' = k.size c := by
  cases k <;> simp only [Key.size, h.n, h.ne, h.elastic, h.kO, h.dO, h.dmO, h.dlO]
theorem val (k : Key) : k.val c' = k.val c := by
  cases k <;> simp only [Key.val, h.dh, h.w2l, h.ee, h.g, h.dyn, h.dl, h.K, h.D, h.Dm, h.Mm]
theorem here (k : Key) : k.here c' ↔ k.here c := by
  cases k <;> simp only [Key.here, h.elastic, h.dlO]
theorem fileVal : fileVal c' = fileVal c := by
  funext v
  unfold Robot.fileVal
  simp only [h.val]
theorem vars {k : Key} (hk : k.isVar = true) : k.vars c' = k.vars c := by
  unfold Key.vars Key.idx
  simp only [h.size, Key.flag_var hk]

end Spec.SameValues

/-- The values in the file of the symbols of parameters. -/
def parVal (c : Conf) (v : Var) : Option ℝ := if IsPar v then some (fileVal c v) else none

theorem parVal_key {k : Key} (hk : k.isVar = false) (i : ℕ) : parVal c ⟨k.sym, i⟩ = some (k.val c i) := by
  unfold parVal
  rw [if_pos ⟨k, hk, rfl⟩, fileVal_key]

theorem parVal_var {k : Key} (hk : k.isVar = true) {v : Var} (hv : v.name = k.sym) : parVal c v = none := by
  unfold parVal
  refine if_neg ?_
  rintro ⟨k', hk', e⟩
  rw [hv] at e
  rw [Key.sym_inj e, hk] at hk'
  cases hk'

theorem eqv_mat (h : SameValues c c') (k : Key) (i j : ℕ) : Expr.Eqv (parVal c) ((k.mat c).e i j) ((k.mat c').e i j) := by
  by_cases hk : k.isVar = true
  · rw [Key.mat_var hk, Key.mat_var hk, h.size]
    exact .refl _
  · have hk : k.isVar = false := by simpa using hk
    simp only [Key.mat, Key.symMat, h.size, h.val, SX.sym]
    by_cases hi : i < k.size c ∧ j = 0
    · have hv := Expr.Eqv.par (parVal_key (c := c) hk i)
      by_cases f1 : k.flag c i = 0 <;> by_cases f2 : k.flag c' i = 0 <;> simp only [hi, f1, f2, and_self, and_false, if_true, if_false]
      · exact .refl _
      · exact hv.symm
      · exact hv
      · exact .refl _
    · rw [if_neg (show ¬ (i < k.size c ∧ j = 0 ∧ k.flag c i = 0) from fun x => hi ⟨x.1, x.2.1⟩),
        if_neg (show ¬ (i < k.size c ∧ j = 0 ∧ k.flag c' i = 0) from fun x => hi ⟨x.1, x.2.1⟩)]
      exact .refl _

theorem rel_twin (h : SameValues c c') {k : Key} (hk : k.here c) : Rel (parVal c) Set.univ (k.size c) 1 (kmod c k) (kmod c' k) := by
  rw [kmod_here hk, kmod_here ((h.here k).2 hk)]
  exact ⟨trivial, rfl, rfl, h.size k, rfl, fun _ _ => Set.subset_univ _, eqv_mat h k⟩

variable [Fl]

theorem ang_par {P : Var → Option ℝ} {v : Var} {a : ℝ} (hv : P v = some a) (ha : ExactAngle a) : Ang P (.var v) (.const a) := by
  have h1 : zis (ccos (.const a)) = .const (Real.cos a) := by
    rw [← ha.1]; simp only [ccos, zis, Spec.snap]; split_ifs <;> rfl
  have h2 : zis (csin (.const a)) = .const (Real.sin a) := by
    rw [← ha.2]; simp only [csin, zis, Spec.snap]; split_ifs <;> rfl
  have h3 : zis (cneg (csin (.const a))) = .const (-Real.sin a) := by
    rw [← ha.2]; simp only [csin, cneg, zis, Spec.snap, abs_neg]; split_ifs <;> simp
  refine ⟨?_, ?_, ?_⟩
  · rw [h1]; exact (Expr.Eqv.par hv).cos.trans (.cos_const a)
  · rw [h2]; exact (Expr.Eqv.par hv).sin.trans (.sin_const a)
  · rw [h3]; exact (((Expr.Eqv.par hv).sin.trans (.sin_const a)).neg).trans (.neg_const _)

theorem Ang.symm {P : Var → Option ℝ} {t t' : Expr} (h : Ang P t t') : Ang P t' t := ⟨h.cos.symm, h.sin.symm, h.nsin.symm⟩

theorem ang_notConst {P : Var → Option ℝ} {t t' : Expr} (h : NotConst t) (h' : NotConst t') (e : Expr.Eqv P t t') : Ang P t t' := by
  have key : ∀ t : Expr, NotConst t → zis (ccos t) = .cos t ∧ zis (csin t) = .sin t ∧ zis (cneg (csin t)) = .neg (.sin t) := by
    intro t ht
    cases t <;> first | exact ⟨rfl, rfl, rfl⟩ | exact absurd rfl (ht _)
  obtain ⟨a1, a2, a3⟩ := key t h
  obtain ⟨b1, b2, b3⟩ := key t' h'
  exact ⟨by rw [a1, b1]; exact e.cos, by rw [a2, b2]; exact e.sin, by rw [a3, b3]; exact e.sin.neg⟩

/-- An angle parameter. -/
theorem ang_twin (h : SameValues c c') {k : Key} (hk : k.isVar = false) (hh : k.here c) {i : ℕ} (hi : i < k.size c)
    (hm : ¬ (k.flag c i = 0 ↔ k.flag c' i = 0) → ExactAngle (k.val c i)) : Ang (parVal c) ((kmod c k).e i 0) ((kmod c' k).e i 0) := by
  rw [kmod_here hh, kmod_here ((h.here k).2 hh)]
  have hi' : i < k.size c' := by rw [h.size]; exact hi
  have hv := parVal_key (c := c) hk i
  by_cases f1 : k.flag c i = 0 <;> by_cases f2 : k.flag c' i = 0
  · rw [Key.mat_num hi f1, Key.mat_num hi' f2, h.val]; exact Ang.refl _
  · rw [Key.mat_num hi f1, Key.mat_sym hi' f2]
    exact (ang_par hv (hm (by simp [f1, f2]))).symm
  · rw [Key.mat_sym hi f1, Key.mat_num hi' f2, h.val]
    exact ang_par hv (hm (by simp [f1, f2]))
  · rw [Key.mat_sym hi f1, Key.mat_sym hi' f2]; exact Ang.refl _

theorem like_twin (h : SameValues c c') (hn : 0 < c.n) (ht : Typed c) (ha : ∀ a, MixedAngle c c' a → ExactAngle a) :
    Base.Like (parVal c) (base c) (base c') := by
  have L := like_base hn ht
  have L' := like_base (c := c') (by rw [h.n]; exact hn) (by unfold Typed; rw [h.types]; exact ht)
  have hbn : (base c').n = (base c).n := h.n
  refine ⟨hn, h.n, h.types, L.tyOk, L.q, L.dq, L.ddq, L.d3q, L.dqr, L.ddqr, L.w, by rw [L'.q, L.q, hbn], by rw [L'.dq, L.dq, hbn], by rw [L'.ddq, L.ddq, hbn],
    by rw [L'.d3q, L.d3q, hbn], by rw [L'.dqr, L.dqr, hbn], by rw [L'.ddqr, L.ddqr, hbn], by rw [L'.w, L.w], ?_, ?_, ?_, ?_, ?_⟩
  · intro v hv
    simp only [List.mem_cons, List.not_mem_nil, or_false] at hv
    rcases hv with hv | hv | hv
    · exact parVal_var (k := .q) rfl hv
    · exact parVal_var (k := .dq) rfl hv
    · exact parVal_var (k := .ddq) rfl hv
  · intro i hi
    have hi : i < c.n := hi
    refine ang_twin h (k := .DH) rfl trivial (by simp only [Key.size]; omega) fun hm => ha _ (.inl ⟨i, hi, ?_, ?_⟩)
    · rw [Nat.mul_comm]; exact hm
    · rw [Nat.mul_comm]; rfl
  · intro i hi
    have hi : i < c.n := hi
    by_cases hp : isP ((base c).ty i)
    · rw [if_pos hp, if_pos hp]
      refine ang_twin h (k := .DH) rfl trivial (by simp only [Key.size]; omega) fun hm => ha _ (.inr (.inl ⟨i, hi, ?_, ?_, ?_⟩))
      · have : (base c).ty i = c.types.getD i "" := rfl
        rw [← this]
        rcases hp with hp | hp <;> rw [hp] <;> simp
      · rw [Nat.mul_comm]; exact hm
      · rw [Nat.mul_comm]; rfl
    · rw [if_neg hp, if_neg hp]
      have hq : (base c).q.e i 0 = .var ⟨"q", i⟩ := by rw [L.q]; simp [SX.sym, show i < (base c).n from hi]
      rw [hq]
      exact ang_notConst (notConst_sadd_var _ _) (notConst_sadd_var _ _) (((rel_twin h (k := .DH) trivial).eqv _ _).sadd (.refl _))
  · intro k h1 h2
    exact ang_twin h (k := .W2L) rfl trivial h2 fun hm => ha _ (.inr (.inr ⟨k, h1, h2, .inl ⟨hm, rfl⟩⟩))
  · intro k h1 h2
    exact ang_twin h (k := .EE) rfl trivial h2 fun hm => ha _ (.inr (.inr ⟨k, h1, h2, .inr ⟨hm, rfl⟩⟩))

/-- The expressions of the library functions agree. -/
theorem expr_twin (h : SameValues c c') (hn : 0 < c.n) (ht : Typed c) (ha : ∀ a, MixedAngle c c' a → ExactAngle a) {f : Fn} (hv : f.Valid c)
    (hr : f.isReg = false) : Rel (parVal c) Set.univ (f.rows c) (f.cols c) (f.expr (base c) c) (f.expr (base c') c') := by
  have e : f.expr (base c') c' = f.expr (base c') c := by
    cases f <;> first | rfl | (simp only [Fn.expr, h.ne, h.kO, h.dO, h.dmO, h.dlO]; done) | cases hr
  rw [e]
  refine Fn.rel (like_twin h hn ht ha) rfl f hv hr fun k hk => ?_
  obtain ⟨h1, h2, h3⟩ := Fn.here_keys hv k hk
  rw [base_at h2 h3, base_at h2 h3]
  exact rel_twin h h1

omit [Fl] in
theorem valid_twin (h : SameValues c c') {f : Fn} (hr : f.isReg = false) : f.Valid c' ↔ f.Valid c := by
  cases f <;> first | (simp only [Fn.Valid, h.n, h.elastic, h.kO, h.dO, h.dmO, h.dlO]; done) | cases hr

/-- The two robots have the same values of the variables. -/
structure Twin (c c' : Conf) (r r' : Robot) : Prop where
  left : Live c r (Fn.lib c)
  right : Live c' r' (Fn.lib c')
  arg : ∀ k : Key, k.isVar = true → r'.arg k.str = r.arg k.str

/-- Same result, and the robots stay twins. -/
def Same (c c' : Conf) : Res Robot Obs → Res Robot Obs → Prop
  | .ok a r, .ok b r' => a = b ∧ Twin c c' r r'
  | .yaml r, .yaml r' => Twin c c' r r'
  | .exc r, .exc r' => Twin c c' r r'
  | .ub, .ub => True
  | _, _ => False

theorem Twin.sim {r r' s s' : Robot} (t : Twin c c' r r') (h : Sim r s) (h' : Sim r' s') : Twin c c' s s' :=
  ⟨t.left.sim h, t.right.sim h', fun k hk => by rw [← h.arg, ← h'.arg, t.arg k hk]⟩

theorem Twin.set {r r' : Robot} (t : Twin c c' r r') {k : Key} (hk : k.isVar = true) (v : List Num) : Twin c c' (r.setArgs k.str v) (r'.setArgs k.str v) := by
  have key : ∀ (r : Robot) (k' : Key), k'.isVar = false → (r.setArgs k.str v).arg k'.str = r.arg k'.str := by
    intro r k' hk'
    rw [arg_setArgs, if_neg]
    intro e
    rw [Key.str_inj e, hk'] at hk
    cases hk
  refine ⟨t.left.args rfl (key r), t.right.args rfl (key r'), fun k' hk' => ?_⟩
  rw [arg_setArgs, arg_setArgs, t.arg k' hk']

theorem Twin.inVals {r r' : Robot} (h : SameValues c c') (t : Twin c c' r r') {k : Key} (hk : k.isVar = true) :
    Robot.inVals c' r' k = Robot.inVals c r k := by
  unfold Robot.inVals
  rw [h.vars hk, t.arg k hk]

omit [Fl] in
theorem evalOf_twin (h : SameValues c c') {m k : ℕ} {A A' : SX} (hA : SX.Rel (parVal c) Set.univ m k A A') (l : List (Var × Num)) :
    evalOf A' c' l = evalOf A c l := by
  have he : envOf c' l = envOf c l := by
    funext v
    unfold envOf
    rw [h.fileVal]
  have hlen : A'.rows * A'.cols = A.rows * A.cols := by rw [hA.rows, hA.cols, hA.rows', hA.cols']
  unfold evalOf SX.elements
  rw [hlen, hA.rows', ← hA.rows, he]
  split_ifs
  · rw [List.map_map, List.map_map]
    refine List.map_congr_left fun i _ => ?_
    simp only [Function.comp_apply]
    congr 1
    refine ((hA.eqv _ _).eval fun v a hv => ?_).symm
    unfold parVal at hv
    split_ifs at hv with hp
    unfold envOf
    rw [if_pos hp]
    exact Option.some.inj hv
  · simp

omit [Fl] in
theorem Fn.isReg_name {f : Fn} (h : f.isReg = true) : f.name ∈ parRegressors := by
  cases f <;> first | (cases h; done) | (simp only [Fn.name, Fn.num, Fn.stem, Stem.str, parRegressors]; decide)

omit [Fl] in
theorem get_absent {r : Robot} {s : String} (h : r.funArgs.has s ≠ true) : Robot.get s r = .ok ⟨1, 1, [some 0]⟩ r := by
  have : r.funArgs.find s = none := by
    unfold SMap.has at h
    simpa using h
  unfold Robot.get
  rw [bind_ok (read_run _), this]
  rfl

theorem Same.get {r r' : Robot} (h : SameValues c c') (hn : 0 < c.n) (ht : Typed c) (ha : ∀ a, MixedAngle c c' a → ExactAngle a) (t : Twin c c' r r')
    {s : String} (hs : s ∉ parRegressors) : Same c c' ((RCall.get s).run r) ((RCall.get s).run r') := by
  show Same c c' (obs Obs.mat (Robot.get s) r) (obs Obs.mat (Robot.get s) r')
  unfold obs
  by_cases hf : ∃ f : Fn, f.Valid c ∧ f.name = s
  · obtain ⟨f, hv, rfl⟩ := hf
    have hr : f.isReg = false := by
      by_contra hr
      exact hs (Fn.isReg_name (by simpa using hr))
    obtain ⟨r₁, s₁, e₁⟩ := t.left.get hv
    obtain ⟨r₂, s₂, e₂⟩ := t.right.get ((valid_twin h hr).2 hv)
    have hl : f.sure.mapM (Robot.inVals c' r') = f.sure.mapM (Robot.inVals c r) := by
      have key : ∀ l : List Key, (∀ k ∈ l, k.isVar = true) → l.mapM (Robot.inVals c' r') = l.mapM (Robot.inVals c r) := by
        intro l
        induction l with
        | nil => intro _; rfl
        | cons k l ih => intro hk; rw [List.mapM_cons, List.mapM_cons, t.inVals h (hk k List.mem_cons_self), ih fun a ha => hk a (List.mem_cons_of_mem _ ha)]
      exact key _ f.sure_var
    have hA := expr_twin h hn ht ha hv hr
    have tw := t.sim s₁ s₂
    rw [hl] at e₂
    cases hm : f.sure.mapM (Robot.inVals c r) with
    | none =>
      rw [hm] at e₁ e₂
      rw [bind_exc (by exact e₁), bind_exc (by exact e₂)]
      exact tw
    | some l =>
      rw [hm] at e₁ e₂
      rw [bind_ok (by exact e₁), bind_ok (by exact e₂)]
      refine ⟨?_, tw⟩
      rw [evalOf_twin h hA, hA.rows, hA.cols, hA.rows', hA.cols']
  · have a1 : r.funArgs.has s ≠ true := fun hh => by
      obtain ⟨g, ⟨f, hv, rfl⟩, e⟩ := t.left.only s hh
      exact hf ⟨f, hv, e⟩
    have a2 : r'.funArgs.has s ≠ true := fun hh => by
      obtain ⟨g, ⟨f, hv, rfl⟩, e⟩ := t.right.only s hh
      have hr : f.isReg = false := by
        by_contra hr
        have := Fn.isReg_name (by simpa using hr)
        exact hs (by rw [← e]; exact this)
      exact hf ⟨f, (valid_twin h hr).1 hv, e⟩
    rw [bind_ok (get_absent a1), bind_ok (get_absent a2)]
    exact ⟨rfl, t⟩

omit [Fl] in
theorem motion_key {s : String} (h : s ∈ motionNames) : ∃ k : Key, k.isVar = true ∧ k.str = s := by
  simp only [motionNames, List.mem_cons, List.not_mem_nil, or_false] at h
  rcases h with rfl | rfl | rfl | rfl | rfl | rfl | rfl | rfl | rfl | rfl | rfl | rfl
  exacts [⟨.q, rfl, rfl⟩, ⟨.dq, rfl, rfl⟩, ⟨.ddq, rfl, rfl⟩, ⟨.d3q, rfl, rfl⟩, ⟨.d4q, rfl, rfl⟩, ⟨.dqr, rfl, rfl⟩, ⟨.ddqr, rfl, rfl⟩, ⟨.w, rfl, rfl⟩,
    ⟨.x, rfl, rfl⟩, ⟨.dx, rfl, rfl⟩, ⟨.ddx, rfl, rfl⟩, ⟨.ddxr, rfl, rfl⟩]

theorem Same.setArg {r r' : Robot} (t : Twin c c' r r') {k : Key} (hk : k.isVar = true) (v : List Num) :
    Same c c' ((RCall.setArg k.str v).run r) ((RCall.setArg k.str v).run r') := ⟨rfl, t.set hk v⟩

theorem Twin.touch {r r' : Robot} (t : Twin c c' r r') (s : String) : Twin c c' (r.touchArg s) (r'.touchArg s) := t.sim (sim_touch r s) (sim_touch r' s)

theorem Same.getArg {r r' : Robot} (t : Twin c c' r r') {k : Key} (hk : k.isVar = true) :
    Same c c' ((RCall.getArg k.str).run r) ((RCall.getArg k.str).run r') := by
  refine ⟨?_, t.touch _⟩
  show Obs.vec _ = Obs.vec _
  rw [(t.touch k.str).arg k hk]

theorem Same.setVar {r r' : Robot} (h : SameValues c c') (t : Twin c c' r r') (f : VarName) (v : List Num) :
    Same c c' ((RCall.setVar f v).run r) ((RCall.setVar f v).run r') := by
  obtain ⟨k, hk, e⟩ : ∃ k : Key, k.isVar = true ∧ k.str = f.key := by
    cases f
    exacts [⟨.q, rfl, rfl⟩, ⟨.dq, rfl, rfl⟩, ⟨.dqr, rfl, rfl⟩, ⟨.ddqr, rfl, rfl⟩, ⟨.x, rfl, rfl⟩, ⟨.dx, rfl, rfl⟩, ⟨.ddx, rfl, rfl⟩, ⟨.ddxr, rfl, rfl⟩]
  have hs : f.size r' = f.size r := by
    have hn : r'.n = r.n := by rw [t.right.n, t.left.n, h.n]
    have hne : r'.ne = r.ne := by rw [t.right.ne, t.left.ne, h.ne]
    cases f <;> simp only [VarName.size, hn, hne]
  show Same c c' (obs Obs.int (setSized f.key (f.size r) v) r) (obs Obs.int (setSized f.key (f.size r') v) r')
  rw [hs, ← e]
  have t' := t.touch k.str
  unfold obs
  by_cases hv : v.length = f.size r
  · by_cases hl : v.length ≤ (r.arg k.str).length
    · rw [bind_ok (setSized_long hv hl), bind_ok (setSized_long hv (by rw [t.arg k hk]; exact hl)), t.arg k hk]
      exact ⟨rfl, t.set hk _⟩
    · rw [bind_exc (setSized_short hv (not_le.1 hl) rfl), bind_exc (setSized_short hv (by rw [t.arg k hk]; exact not_le.1 hl) rfl), t.arg k hk]
      exact t.set hk _
  · rw [bind_ok (setSized_wrong hv), bind_ok (setSized_wrong hv)]
    exact ⟨rfl, t'⟩

/-- Histories of such calls are indistinguishable. -/
theorem trace_twin (h : SameValues c c') (hn : 0 < c.n) (ht : Typed c) (ha : ∀ a, MixedAngle c c' a → ExactAngle a) :
    ∀ (hist : List RCall) (r r' : Robot), (∀ x ∈ hist, Motion x) → Twin c c' r r' → trace hist r' = trace hist r := by
  intro hist
  induction hist with
  | nil => intro r r' _ _; rfl
  | cons x hist ih =>
    intro r r' hx t
    have hs : Same c c' (x.run r) (x.run r') := by
      have := hx x List.mem_cons_self
      cases x <;> first | exact this.elim | skip
      · exact Same.get h hn ht ha t this
      · obtain ⟨k, hk, rfl⟩ := motion_key this
        exact Same.setArg t hk _
      · exact Same.setVar h t _ _
      · obtain ⟨k, hk, rfl⟩ := motion_key this
        exact Same.getArg t hk
    have ih := fun r r' => ih r r' fun y hy => hx y (List.mem_cons_of_mem _ hy)
    unfold trace
    revert hs
    cases x.run r <;> cases x.run r' <;> intro hs <;> first | exact hs.elim | skip
    · obtain ⟨rfl, t'⟩ := hs
      simp only
      rw [ih _ _ t']
    · simp only
      rw [ih _ _ hs]
    · simp only
      rw [ih _ _ hs]
    · rfl

end

end Thunder
