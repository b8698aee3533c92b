import Verif.Spec.Tune
import Verif.Lemmas.AsRead
import Verif.Lemmas.ClassTest
import Verif.Lemmas.WrapperInv

/-!
# Objects of the generated class whose symbolic parameters are changed
-/

open scoped Classical

namespace Thunder

noncomputable section

open Spec Robot Wrap

variable {c c' : Conf}

/-! ## Placing numbers in the symbolic entries -/

theorem symbolics_placed (k : ℕ) (f : ℕ → ℤ) (x v : ℕ → ℝ) : symbolics k f (placed f x v) = nums (before f k) v := by
  unfold symbolics nums
  induction k with
  | zero => rfl
  | succ k ih =>
    rw [List.range_succ, List.filter_append, List.map_append, ih, before_succ]
    by_cases h0 : f k = 0
    · simp [h0]
    · simp [h0, List.range_succ, placed]

theorem before_all {f : ℕ → ℤ} {k : ℕ} (h : ∀ i < k, f i ≠ 0) : ∀ i ≤ k, before f i = i
  | 0, _ => rfl
  | i + 1, hi => by rw [before_succ, before_all h i (by omega), if_neg (h i (by omega))]

theorem placed_all {f : ℕ → ℤ} {k : ℕ} (h : ∀ i < k, f i ≠ 0) (x v : ℕ → ℝ) {i : ℕ} (hi : i < k) : placed f x v i = v i := by
  rw [placed, if_neg (h i hi), before_all h i hi.le]

theorem retuned_trans {a b d : Conf} (h : Retuned a b) (k : Retuned b d) : Retuned a d where
  types := k.types.trans h.types
  elastic := k.elastic.trans h.elastic
  kO := k.kO.trans h.kO
  dO := k.dO.trans h.dO
  dmO := k.dmO.trans h.dmO
  dlO := k.dlO.trans h.dlO
  fdh := k.fdh.trans h.fdh
  fw2l := k.fw2l.trans h.fw2l
  fee := k.fee.trans h.fee
  fg := k.fg.trans h.fg
  fdyn := k.fdyn.trans h.fdyn
  fdl := k.fdl.trans h.fdl
  fK := k.fK.trans h.fK
  fD := k.fD.trans h.fD
  fDm := k.fDm.trans h.fDm
  fMm := k.fMm.trans h.fMm
  dh i e := (k.dh i (h.fdh ▸ e)).trans (h.dh i e)
  w2l i e := (k.w2l i (h.fw2l ▸ e)).trans (h.w2l i e)
  ee i e := (k.ee i (h.fee ▸ e)).trans (h.ee i e)
  g i e := (k.g i (h.fg ▸ e)).trans (h.g i e)
  dyn i e := (k.dyn i (h.fdyn ▸ e)).trans (h.dyn i e)
  dl i e := (k.dl i (h.fdl ▸ e)).trans (h.dl i e)
  K i e := (k.K i (h.fK ▸ e)).trans (h.K i e)
  D i e := (k.D i (h.fD ▸ e)).trans (h.D i e)
  Dm i e := (k.Dm i (h.fDm ▸ e)).trans (h.Dm i e)
  Mm i e := (k.Mm i (h.fMm ▸ e)).trans (h.Mm i e)

theorem retuned_retune (c : Conf) (v : ℕ → ℝ) (p : ParList) : Retuned c (retune c v p) := by
  cases p <;> exact ⟨rfl, rfl, rfl, rfl, rfl, rfl, rfl, rfl, rfl, rfl, rfl, rfl, rfl, rfl, rfl, rfl, by first | exact fun _ _ => rfl | exact fun _ h => if_pos h,
    by first | exact fun _ _ => rfl | exact fun _ h => if_pos h, by first | exact fun _ _ => rfl | exact fun _ h => if_pos h,
    by first | exact fun _ _ => rfl | exact fun _ h => if_pos h, by first | exact fun _ _ => rfl | exact fun _ h => if_pos h,
    by first | exact fun _ _ => rfl | exact fun _ h => if_pos h, by first | exact fun _ _ => rfl | exact fun _ h => if_pos h,
    by first | exact fun _ _ => rfl | exact fun _ h => if_pos h, by first | exact fun _ _ => rfl | exact fun _ h => if_pos h,
    by first | exact fun _ _ => rfl | exact fun _ h => if_pos h⟩

theorem Spec.Retuned.parSize (h : Retuned c c') (p : ParList) : p.size c' = p.size c := by
  have n := (SameForm.retuned h).n
  have ne := (SameForm.retuned h).ne
  cases p <;> simp only [ParList.size, n, ne, h.kO, h.dO, h.dmO, h.dlO]

theorem Spec.Retuned.parFlag (h : Retuned c c') (p : ParList) : p.flag c' = p.flag c := by
  cases p <;> simp only [ParList.flag, h.fdh, h.fw2l, h.fee, h.fg, h.fdyn, h.fdl, h.fK, h.fD, h.fDm, h.fMm]

theorem val_retune (c : Conf) (v : ℕ → ℝ) (p : ParList) : p.val (retune c v p) = placed (p.flag c) (p.val c) v := by cases p <;> rfl

theorem val_retune_ne (c : Conf) (v : ℕ → ℝ) {p p' : ParList} (h : p' ≠ p) : p'.val (retune c v p) = p'.val c := by
  cases p <;> cases p' <;> first | rfl | exact absurd rfl h

/-! ## The members -/

/-- The member of the class. -/
def Spec.ParList.field : ParList → Field
  | .DH => .DH | .W2L => .W2L | .EE => .EE | .G => .G | .DYN => .DYN | .Dl => .Dl | .K => .K | .D => .D | .Dm => .Dm | .Mm => .Mm

theorem parList_inj {a b : ParList} (h : a.field = b.field) : a = b := by cases a <;> cases b <;> first | rfl | cases h

theorem expects_le (p : ParList) : before (p.flag c) (p.size c) ≤ p.expects c := by
  unfold ParList.expects
  split_ifs with h
  · exact le_refl _
  · exact before_le _ _

namespace Wrap

/-- The object is used for the mechanism `c'`, the file `c` with other symbolic parameters. -/
structure Tuned (c c' : Conf) (o : Obj) : Prop where
  ret : Retuned c c'
  sized : Sized (cfg c) o
  symbs : Symbs c o
  long : ∀ p : ParList, p.kinematic = true → (o.vec p.field).length = p.expects c ∨ p.expects c = 0
  par : ∀ p : ParList, (p ∈ [ParList.K, .D, .Dm, .Mm] → c.elastic = true) → symbolics (p.size c) (p.flag c) (p.val c') <+: o.vec p.field

theorem Tuned.stores {o : Obj} (h : Tuned c c' o) {s : State c'} (hm : Moves c' s o) : Stores c' s o := by
  have k : ∀ p : ParList, (p ∈ [ParList.K, .D, .Dm, .Mm] → c'.elastic = true) → symbolics (p.size c') (p.flag c') (p.val c') <+: o.vec p.field := fun p hp => by
    rw [h.ret.parSize, h.ret.parFlag]
    exact h.par p fun e => h.ret.elastic ▸ hp e
  exact { hm with
    DH := k .DH (fun e => nomatch e)
    W2L := k .W2L (fun e => nomatch e)
    EE := k .EE (fun e => nomatch e)
    grav := k .G (fun e => nomatch e)
    DYN := k .DYN (fun e => nomatch e)
    Dl := fun _ => k .Dl (fun e => nomatch e)
    K := fun he => k .K fun _ => he
    D := fun he => k .D fun _ => he
    Dm := fun he => k .Dm fun _ => he
    Mm := fun he => k .Mm fun _ => he }

theorem length_keptPar {p : ParList} {k : Key} (hs : k.size c = p.size c) (hf : k.flag c = p.flag c) : (kept c k).length = (symbolIdx (p.size c) (p.flag c)).length := by
  unfold kept Key.idx symbolIdx
  rw [List.length_map, hs, hf]

/-- After loading the file. -/
theorem tuned_load {o : Obj} (h : Loaded c o) (hs : Sized (cfg c) o) (hb : Symbs c o) : Tuned c (asRead c) o where
  ret := retuned_asRead c
  sized := hs
  symbs := hb
  long p hp := by
    cases p with
    | DH => exact .inl (by rw [show ParList.DH.field = .DH from rfl, h.dh]; exact length_keptPar (Nat.mul_comm _ _) rfl)
    | W2L => exact .inl (by rw [show ParList.W2L.field = .W2L from rfl, h.w2l]; exact length_keptPar rfl rfl)
    | EE => exact .inl (by rw [show ParList.EE.field = .EE from rfl, h.ee]; exact length_keptPar rfl rfl)
    | G =>
      have l := length_keptPar (c := c) (p := .G) (k := .grav) rfl rfl
      rcases h.grav with e | e
      · exact .inl (by rw [show ParList.G.field = .G from rfl, e]; exact l)
      · exact .inr (by rw [e] at l; exact l.symm)
    | _ => cases hp
  par p hp := by
    have key : ∀ (k : Key) {m : ℕ} {f : ℕ → ℤ} {v : ℕ → ℝ}, k.size c = m → k.flag c = f → k.val c = v →
        (o.vec k.field = kept c k ∨ kept c k = []) → symbolics m f v <+: o.vec k.field := fun k _ _ _ h1 h2 h3 h4 => by
      rw [symbolics_eq h1 h2 h3]
      rcases h4 with h4 | h4
      · rw [h4]
      · rw [h4]; exact List.nil_prefix
    have sym : ∀ {m m' : ℕ} (f : ℕ → ℤ) (x : ℕ → ℝ) {v : List Num}, v = nums m x → m' = m → symbolics m' f (fromFront f x) <+: v := by
      rintro m _ f x _ rfl rfl
      exact symbolics_fromFront _ f x
    cases p with
    | DH => exact key .DH (Nat.mul_comm _ _) rfl rfl (.inl h.dh)
    | W2L => exact key .W2L rfl rfl rfl (.inl h.w2l)
    | EE => exact key .EE rfl rfl rfl (.inl h.ee)
    | G => exact key .grav rfl rfl rfl h.grav
    | DYN => exact sym c.fdyn c.dyn h.dyn rfl
    | Dl => exact sym c.fdl c.dl h.dl (Nat.mul_comm _ _)
    | K => exact sym c.fK c.K (h.K (hp (by decide))) (Nat.mul_comm _ _)
    | D => exact sym c.fD c.D (h.D (hp (by decide))) (Nat.mul_comm _ _)
    | Dm => exact sym c.fDm c.Dm (h.Dm (hp (by decide))) (Nat.mul_comm _ _)
    | Mm => exact sym c.fMm c.Mm (h.Mm (hp (by decide))) rfl

/-- Changing a member that holds no parameter the generated code reads. -/
theorem Tuned.other {o : Obj} (h : Tuned c c' o) {f : Field} {v : List Num} (hf : ∀ p : ParList, p.field ≠ f) (hl : v.length = (o.vec f).length) : Tuned c c' (o.set f v) where
  ret := h.ret
  sized := h.sized.set' hl
  symbs := h.symbs.set _ _
  long p hp := by rw [set_vec_ne _ _ (hf p)]; exact h.long p hp
  par p hp := by rw [set_vec_ne _ _ (hf p)]; exact h.par p hp

theorem not_var {f : VarField} (p : ParList) : p.field ≠ f.field := by cases p <;> cases f <;> (intro e; cases e)
theorem not_reg (p : ParList) : p.field ≠ .REG := by cases p <;> (intro e; cases e)

theorem size_par (p : ParList) (hp : p.kinematic = false) : (cfg c).size p.field = p.expects c := by
  cases p <;> first | rfl | exact Nat.mul_comm _ _ | cases hp

/-- A vector of parameters is replaced. -/
theorem Tuned.replace {o : Obj} (h : Tuned c c' o) (p : ParList) (v : ℕ → ℝ) : Tuned c (retune c' v p) (o.set p.field (nums (p.expects c) v)) where
  ret := retuned_trans h.ret (retuned_retune c' v p)
  sized := h.sized.set fun hc => by
    have hp : p.kinematic = false := by cases p <;> first | rfl | exact absurd trivial hc
    simp [nums, size_par p hp]
  symbs := h.symbs.set _ _
  long p' hp := by
    by_cases e : p' = p
    · subst e
      rw [set_vec_same]
      exact .inl (by simp [nums])
    · rw [set_vec_ne _ _ fun e' => e (parList_inj e')]
      exact h.long p' hp
  par p' hp := by
    by_cases e : p' = p
    · subst e
      rw [set_vec_same, val_retune, h.ret.parFlag, symbolics_placed]
      exact nums_prefix (expects_le p') v
    · rw [set_vec_ne _ _ fun e' => e (parList_inj e'), val_retune_ne _ _ e]
      exact h.par p' hp

/-- Nothing is replaced where there is nothing symbolic. -/
theorem Tuned.skip {o : Obj} (h : Tuned c c' o) {p : ParList} (h0 : p.expects c = 0) (v : ℕ → ℝ) : Tuned c (retune c' v p) o where
  ret := retuned_trans h.ret (retuned_retune c' v p)
  sized := h.sized
  symbs := h.symbs
  long := h.long
  par p' hp := by
    by_cases e : p' = p
    · subst e
      have := expects_le (c := c) p'
      rw [val_retune, h.ret.parFlag, symbolics_placed, show before (p'.flag c) (p'.size c) = 0 by omega]
      exact List.nil_prefix
    · rw [val_retune_ne _ _ e]
      exact h.par p' hp

/-- The members changed by a setter of parameters. -/
def Only (o o' : Obj) : Prop := ∀ f : VarField, o'.vec f.field = o.vec f.field

theorem only_set {o : Obj} {f : Field} {v : List Num} (h : ∀ f' : VarField, f'.field ≠ f) : Only o (o.set f v) := fun f' => set_vec_ne _ _ (h f')

theorem only_par (o : Obj) (p : ParList) (v : List Num) : Only o (o.set p.field v) := only_set fun f e => not_var (f := f) p e.symm
theorem only_reg (o : Obj) (v : List Num) : Only o (o.set .REG v) := only_set fun f e => by cases f <;> cases e

/-- One call. -/
theorem Tuned.setter {o : Obj} (h : Tuned c c' o) (p : ParList) (v : ℕ → ℝ) :
    ∃ o', (setter (nums (p.expects c) v) p).run (cfg c) o = some o' ∧ Tuned c (retune c' v p) o' ∧ Only o o' := by
  by_cases hl : (nums (p.expects c) v).length = (o.vec p.field).length
  · have r := h.replace p v
    have w := only_par o p (nums (p.expects c) v)
    cases p <;> first
      | exact ⟨_, run_setPar hl, r, w⟩
      | exact ⟨_, run_setDH hl, r, w⟩
      | skip
    refine ⟨_, run_setDYN h.sized (length_nums _ _), r.other not_reg ?_, fun f => (only_reg _ _ f).trans (w f)⟩
    rw [length_regOfDynW]
    exact (r.sized .REG id).symm
  · have hk : p.kinematic = true := by
      by_contra hk
      rw [Bool.not_eq_true] at hk
      refine hl ?_
      rw [length_nums, h.sized _ (by cases p <;> first | exact id | cases hk), size_par p hk]
    have h0 : p.expects c = 0 := (h.long p hk).resolve_left fun e => hl (by rw [length_nums, e])
    refine ⟨o, ?_, h.skip h0 v, fun _ => rfl⟩
    cases p <;> first | (cases hk; done) | exact congrArg Out.caught (if_neg hl)

/-- Setting the linear parameters. -/
theorem Tuned.lin {o : Obj} (h : Tuned c c' o) {d : ℕ → ℝ} (hd : ∀ i < c.n, mass d i ≠ 0) :
    ∃ o', (Call.setREG (nums (10 * c.n) (reg d)) true).run (cfg c) o = some o' ∧ Tuned c (retune c' d .DYN) o' ∧ Only o o' ∧ o'.vec .REG = nums (10 * c.n) (reg d) ∧
      o'.vec .DYN = nums (10 * c.n) d := by
  have e := run_setREG h.sized (v := nums (10 * c.n) (reg d)) (length_nums _ _)
  have hinv : dynOfRegW c.n (nums (10 * c.n) (reg d)) = nums (10 * c.n) d := by
    have := dyn_reg_of_realMass (n := c.n) (r := nums (10 * c.n) d) ⟨d, rfl, fun i hi => hd i hi⟩
    rwa [regOfDyn_nums] at this
  rw [show (cfg c).n = c.n from rfl, hinv] at e
  have t := (h.other (v := nums (10 * c.n) (reg d)) not_reg (by rw [length_nums]; exact (h.sized .REG id).symm)).replace .DYN d
  exact ⟨_, e, t, fun f => (only_par _ .DYN _ f).trans (only_reg _ _ f), by rw [set_vec_ne _ _ (by decide), set_vec_same], set_vec_same _ _ _⟩

/-- Every call of the user. -/
theorem Tuned.step {y : Yaml} (hy : Describes y c) {o : Obj} (h : Tuned c c' o) {t : Tuning} (ht : t.Fits c) :
    ∃ o', (t.call y c).run (cfg c) o = some o' ∧ Tuned c (t.effect c c') o' ∧
      ∀ f : VarField, o'.vec f.field = match t with | .var f' v' => if f' = f then v' else o.vec f.field | _ => o.vec f.field := by
  cases t with
  | var f v =>
    have hv : v.length = f.expected (cfg c) := by rw [← components_eq]; exact ht
    refine ⟨_, run_setVar hv o, h.other (fun p => not_var p) ?_, fun f' => ?_⟩
    · rw [hv, h.sized f.field (by cases f <;> exact id)]
      cases f <;> rfl
    · simp only
      split_ifs with e
      · rw [e, set_vec_same]
      · exact set_vec_ne _ _ fun e' => e (by revert e'; cases f <;> cases f' <;> simp [VarField.field])
  | load u =>
    obtain ⟨o', e, h1, h2, h3, h4⟩ := loadConf_ok hy u h.sized h.symbs
    refine ⟨o', e, tuned_load h3 h1 h2, fun f => ?_⟩
    rw [← varKey_field]
    exact h4 _ (varKey_isVar f)
  | par p v => exact h.setter p v
  | lin d =>
    obtain ⟨o', e, h1, h2, -⟩ := h.lin ht
    exact ⟨o', e, h1, h2⟩

theorem Tuned.steps {y : Yaml} (hy : Describes y c) : ∀ (l : List Tuning) {c' : Conf} {o : Obj}, Tuned c c' o → (∀ t ∈ l, t.Fits c) →
    ∃ o', runAll (cfg c) (l.map (Tuning.call y c)) o = some o' ∧ Tuned c (l.foldl (Tuning.effect c) c') o' ∧
      ∀ f : VarField, o'.vec f.field = l.foldl (fun v t => match t with | .var f' v' => if f' = f then v' else v | _ => v) (o.vec f.field)
  | [], _, o, h, _ => ⟨o, rfl, h, fun _ => rfl⟩
  | t :: l, c', o, h, ht => by
    obtain ⟨o₁, e₁, h₁, v₁⟩ := h.step hy (ht t List.mem_cons_self)
    obtain ⟨o', e', h', v'⟩ := Tuned.steps hy l h₁ fun t' ht' => ht t' (List.mem_cons_of_mem _ ht')
    refine ⟨o', ?_, h', fun f => ?_⟩
    · rw [List.map_cons, runAll, e₁]
      exact e'
    · rw [v' f, v₁ f, List.foldl_cons]
      cases t <;> rfl

end Wrap

end

end Thunder
