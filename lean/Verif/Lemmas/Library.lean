import Verif.Sym.Eqv
import Verif.Lemmas.Chain
import Verif.Model.Regressors

/-!
# All matrices of the library: construction, size, symbols, agreement

For every matrix computed from the symbolic vectors of a `Base`: it is built without exception, has the expected size, uses only the symbols of
the vectors it is computed from, and agrees with the matrix computed from another `Base` whose vectors agree (`SX.Rel`).
-/

open scoped Classical

namespace Thunder

open SX

noncomputable section

variable {P : Var → Option ℝ} {S : Set Var}

theorem rel_mat33 {a b c d e f g h i a' b' c' d' e' f' g' h' i' : Expr}
    (ha : a.fv ⊆ S ∧ a.Eqv P a') (hb : b.fv ⊆ S ∧ b.Eqv P b') (hc : c.fv ⊆ S ∧ c.Eqv P c')
    (hd : d.fv ⊆ S ∧ d.Eqv P d') (he : e.fv ⊆ S ∧ e.Eqv P e') (hf : f.fv ⊆ S ∧ f.Eqv P f')
    (hg : g.fv ⊆ S ∧ g.Eqv P g') (hh : h.fv ⊆ S ∧ h.Eqv P h') (hi : i.fv ⊆ S ∧ i.Eqv P i') :
    Rel P S 3 3 (mat33 a b c d e f g h i) (mat33 a' b' c' d' e' f' g' h' i') where
  ok := trivial
  rows := rfl
  cols := rfl
  rows' := rfl
  cols' := rfl
  over := Base.over_mat33 ha.1 hb.1 hc.1 hd.1 he.1 hf.1 hg.1 hh.1 hi.1
  eqv k l := by
    match k, l with
    | 0, 0 => exact ha.2
    | 0, 1 => exact hb.2
    | 0, 2 => exact hc.2
    | 1, 0 => exact hd.2
    | 1, 1 => exact he.2
    | 1, 2 => exact hf.2
    | 2, 0 => exact hg.2
    | 2, 1 => exact hh.2
    | 2, 2 => exact hi.2
    | 0, k + 3 => exact .refl _
    | 1, k + 3 => exact .refl _
    | 2, k + 3 => exact .refl _
    | k + 3, _ => exact .refl _

theorem rel_col3 {a b c a' b' c' : Expr} (ha : a.fv ⊆ S ∧ a.Eqv P a') (hb : b.fv ⊆ S ∧ b.Eqv P b') (hc : c.fv ⊆ S ∧ c.Eqv P c') :
    Rel P S 3 1 (col3 a b c) (col3 a' b' c') where
  ok := trivial
  rows := rfl
  cols := rfl
  rows' := rfl
  cols' := rfl
  over := Base.over_col3 ha.1 hb.1 hc.1
  eqv k l := by
    match k, l with
    | 0, 0 => exact ha.2
    | 1, 0 => exact hb.2
    | 2, 0 => exact hc.2
    | 0, k + 1 => exact .refl _
    | 1, k + 1 => exact .refl _
    | 2, k + 1 => exact .refl _
    | k + 3, _ => exact .refl _

/-- A constant agrees with itself. -/
theorem cst (c : ℝ) : (Expr.const c).fv ⊆ S ∧ (Expr.const c).Eqv P (Expr.const c) := ⟨by simp, .refl _⟩

theorem SX.Rel.ent {r c : ℕ} {A A' : SX} (h : Rel P S r c A A') (i j : ℕ) : (A.e i j).fv ⊆ S ∧ (A.e i j).Eqv P (A'.e i j) := ⟨h.over i j, h.eqv i j⟩

theorem ent_sneg {e e' : Expr} (h : e.fv ⊆ S ∧ e.Eqv P e') : e.sneg.fv ⊆ S ∧ e.sneg.Eqv P e'.sneg :=
  ⟨(Expr.fv_sneg _).trans h.1, h.2.sneg⟩
theorem ent_sadd {a a' b b' : Expr} (h : a.fv ⊆ S ∧ a.Eqv P a') (h' : b.fv ⊆ S ∧ b.Eqv P b') :
    (a.sadd b).fv ⊆ S ∧ (a.sadd b).Eqv P (a'.sadd b') := ⟨(Expr.fv_sadd _ _).trans (Set.union_subset h.1 h'.1), h.2.sadd h'.2⟩
theorem ent_ssub {a a' b b' : Expr} (h : a.fv ⊆ S ∧ a.Eqv P a') (h' : b.fv ⊆ S ∧ b.Eqv P b') :
    (a.ssub b).fv ⊆ S ∧ (a.ssub b).Eqv P (a'.ssub b') := ⟨(Expr.fv_ssub _ _).trans (Set.union_subset h.1 h'.1), h.2.ssub h'.2⟩
theorem ent_smul {a a' b b' : Expr} (h : a.fv ⊆ S ∧ a.Eqv P a') (h' : b.fv ⊆ S ∧ b.Eqv P b') :
    (a.smul b).fv ⊆ S ∧ (a.smul b).Eqv P (a'.smul b') := ⟨(Expr.fv_smul _ _).trans (Set.union_subset h.1 h'.1), h.2.smul h'.2⟩
theorem ent_sumN {n : ℕ} {f f' : ℕ → Expr} (h : ∀ k < n, (f k).fv ⊆ S ∧ (f k).Eqv P (f' k)) :
    (sumN n f).fv ⊆ S ∧ (sumN n f).Eqv P (sumN n f') := ⟨fv_sumN_subset fun k hk => (h k hk).1, eqv_sumN fun k hk => (h k hk).2⟩
theorem ent_pow {a a' : Expr} (h : a.fv ⊆ S ∧ a.Eqv P a') (n : ℕ) : (Expr.pow a n).fv ⊆ S ∧ (Expr.pow a n).Eqv P (Expr.pow a' n) :=
  ⟨h.1, h.2.pow n⟩
theorem ent_sqrt {a a' : Expr} (h : a.fv ⊆ S ∧ a.Eqv P a') : (Expr.sqrt a).fv ⊆ S ∧ (Expr.sqrt a).Eqv P (Expr.sqrt a') := ⟨h.1, h.2.sqrt⟩

theorem rel_hatX {v v' : SX} (h : Rel P S 3 1 v v') : Rel P S 3 3 (hatX v) (hatX v') := by
  have := rel_mat33 (cst (P := P) (S := S) 0) (ent_sneg (h.ent 2 0)) (h.ent 1 0) (h.ent 2 0) (cst 0) (ent_sneg (h.ent 0 0)) (ent_sneg (h.ent 1 0))
    (h.ent 0 0) (cst 0)
  exact ⟨⟨h.ok, h.rows.ge⟩, rfl, rfl, rfl, rfl, this.over, this.eqv⟩

theorem rel_homog {R R' p p' : SX} (hR : Rel P S 3 3 R R') (hp : Rel P S 3 1 p p') : Rel P S 4 4 (homog R p) (homog R' p') where
  ok := ⟨hR.ok, hp.ok⟩
  rows := rfl
  cols := rfl
  rows' := rfl
  cols' := rfl
  over := Base.over_homog hR.over hp.over
  eqv i j := by
    simp only [homog]
    split_ifs
    · exact hR.eqv _ _
    · exact hp.eqv _ _
    · exact .refl _
    · exact .refl _

theorem rel_reshapeSq {n : ℕ} {A A' : SX} (h : Rel P S (n * n) 1 A A') : Rel P S n n (reshapeSq A n) (reshapeSq A' n) where
  ok := ⟨h.ok, by rw [h.rows, h.cols, mul_one]⟩
  rows := rfl
  cols := rfl
  rows' := rfl
  cols' := rfl
  over i j := by
    simp only [reshapeSq]
    split_ifs
    · exact h.over _ _
    · simp
  eqv i j := by
    simp only [reshapeSq]
    split_ifs
    · exact h.eqv _ _
    · exact .refl _

theorem rel_dqSelect {n : ℕ} {A A' : SX} (h : Rel P S n 1 A A') : Rel P S n (n * n) (dqSelect A) (dqSelect A') where
  ok := h.ok
  rows := h.rows
  cols := by simp only [dqSelect, h.rows]
  rows' := h.rows'
  cols' := by simp only [dqSelect, h.rows']
  over i j := by
    simp only [dqSelect]
    split_ifs
    · exact (Expr.fv_smul _ _).trans (Set.union_subset (Over.eye _ _ _) (h.over _ _))
    · simp
  eqv i j := by
    simp only [dqSelect]
    rw [h.rows, h.rows']
    split_ifs
    · exact (Expr.Eqv.refl _).smul (h.eqv _ _)
    · exact .refl _

theorem rel_stdCmatrix {n : ℕ} {M M' q dq dq' sel sel' : SX} (hq : Rel.Symbols P n q) (hM : Rel P S n n M M') (hdq : Rel P S n 1 dq dq')
    (hs : Rel P S n (n * n) sel sel') : Rel P S n n (stdCmatrix M q dq sel) (stdCmatrix M' q dq' sel') := by
  have hJ := Rel.jacobian hq hM
  have h1 : Rel P S n n (reshapeSq (SX.mtimes (SX.jacobian M q) dq) q.rows) (reshapeSq (SX.mtimes (SX.jacobian M' q) dq') q.rows) := by
    rw [hq.rows]
    exact rel_reshapeSq (hJ.mtimes hdq)
  exact ((h1.add (hs.mtimes hJ)).sub (hs.mtimes hJ).transp).divc 2

theorem ent_halfTerm {a a' x v v' : Expr} (hx : ∀ w, x = .var w → P w = none) (h : a.fv ⊆ S ∧ a.Eqv P a') (hv : v.fv ⊆ S ∧ v.Eqv P v') :
    (halfTerm a x v).fv ⊆ S ∧ (halfTerm a x v).Eqv P (halfTerm a' x v') :=
  ent_smul (ent_smul (cst _) ⟨(fv_Dx _ _).trans h.1, Rel.eqv_Dx hx h.2⟩) hv

theorem rel_stdCmatrixClassic {n : ℕ} {M M' q dq dq' : SX} (hq : Rel.Symbols P n q) (hM : Rel P S n n M M') (hdq : Rel P S n 1 dq dq') :
    Rel P S n n (stdCmatrixClassic M q dq) (stdCmatrixClassic M' q dq') := by
  have e : ∀ (f f' : ℕ → ℕ → Expr) (p p' : Prop), p → (∀ i j, (f i j).fv ⊆ S ∧ (f i j).Eqv P (f' i j)) →
      Rel P S n n ⟨q.rows, q.rows, fun h j => if h < q.rows ∧ j < q.rows then f h j else .const 0, p⟩
        ⟨q.rows, q.rows, fun h j => if h < q.rows ∧ j < q.rows then f' h j else .const 0, p'⟩ := by
    intro f f' p p' hp hf
    refine ⟨hp, hq.rows, hq.rows, hq.rows, hq.rows, fun i j => ?_, fun i j => ?_⟩
    · simp only
      split_ifs
      · exact (hf i j).1
      · simp
    · simp only
      split_ifs
      · exact (hf i j).2
      · exact .refl _
  refine ((e _ _ _ _ ⟨hM.ok, hq.ok, hdq.ok, hM.rows.trans hq.rows.symm, hM.cols.trans hq.rows.symm, hdq.rows.trans hq.rows.symm,
    fun k hk => hq.isSym k (hq.rows ▸ hk)⟩ ?_).add (e _ _ _ _ trivial ?_)).sub (e _ _ _ _ trivial ?_).transp
  · exact fun i j => ent_sumN fun k _ => ent_halfTerm (hq.free k) (hM.ent _ _) (hdq.ent _ _)
  · exact fun i j => ent_sumN fun k _ => ent_halfTerm (hq.free j) (hM.ent _ _) (hdq.ent _ _)
  · exact fun i j => ent_sumN fun k _ => ent_halfTerm (hq.free j) (hM.ent _ _) (hdq.ent _ _)

theorem rel_ofCols {n k : ℕ} {f f' : ℕ → SX} (h : ∀ l < k, Rel P S n 1 (f l) (f' l)) : Rel P S n k (ofCols n k f) (ofCols n k f') where
  ok l hl := ⟨(h l hl).ok, (h l hl).rows⟩
  rows := rfl
  cols := rfl
  rows' := rfl
  cols' := rfl
  over i j := by
    simp only [ofCols]
    split_ifs with hj
    · exact (h j hj).over _ _
    · simp
  eqv i j := by
    simp only [ofCols]
    split_ifs with hj
    · exact (h j hj).eqv _ _
    · exact .refl _

theorem rel_matQ (l : ℕ) : Rel P S 3 3 (matQ l) (matQ l) := by
  rcases l with _ | _ | l <;> exact rel_mat33 (cst _) (cst _) (cst _) (cst _) (cst _) (cst _) (cst _) (cst _) (cst _)

theorem rel_matE (l : ℕ) : Rel P S 3 3 (matE l) (matE l) := by
  rcases l with _ | _ | _ | _ | _ | l <;> exact rel_mat33 (cst _) (cst _) (cst _) (cst _) (cst _) (cst _) (cst _) (cst _) (cst _)

variable [Fl]

/-! ## Angles -/

/-- The trigonometric expressions built from two angle expressions agree. -/
structure Ang (P : Var → Option ℝ) (t t' : Expr) : Prop where
  cos : (zis (ccos t)).Eqv P (zis (ccos t'))
  sin : (zis (csin t)).Eqv P (zis (csin t'))
  nsin : (zis (cneg (csin t))).Eqv P (zis (cneg (csin t')))

theorem Ang.refl (t : Expr) : Ang P t t := ⟨.refl _, .refl _, .refl _⟩

section

variable {t t' : Expr} (ht : t.fv ⊆ S) (h : Ang P t t')
include ht h

theorem ent_cos : (zis (ccos t)).fv ⊆ S ∧ (zis (ccos t)).Eqv P (zis (ccos t')) := ⟨(Base.fv_zis_ccos _).trans ht, h.cos⟩
theorem ent_sin : (zis (csin t)).fv ⊆ S ∧ (zis (csin t)).Eqv P (zis (csin t')) := ⟨(Base.fv_zis_csin _).trans ht, h.sin⟩
theorem ent_nsin : (zis (cneg (csin t))).fv ⊆ S ∧ (zis (cneg (csin t))).Eqv P (zis (cneg (csin t'))) :=
  ⟨(Base.fv_zis_cneg_csin _).trans ht, h.nsin⟩

theorem rel_rotX : Rel P S 3 3 (rotX t) (rotX t') :=
  rel_mat33 (cst _) (cst _) (cst _) (cst _) (ent_cos ht h) (ent_nsin ht h) (cst _) (ent_sin ht h) (ent_cos ht h)
theorem rel_rotY : Rel P S 3 3 (rotY t) (rotY t') :=
  rel_mat33 (ent_cos ht h) (cst _) (ent_sin ht h) (cst _) (cst _) (cst _) (ent_nsin ht h) (cst _) (ent_cos ht h)
theorem rel_rotZ : Rel P S 3 3 (rotZ t) (rotZ t') :=
  rel_mat33 (ent_cos ht h) (ent_nsin ht h) (cst _) (ent_sin ht h) (ent_cos ht h) (cst _) (cst _) (cst _) (cst _)

end

theorem rel_getTransform {F F' : SX} (h : Rel P S 6 1 F F') (ha : ∀ k, 3 ≤ k → k < 6 → Ang P (F.e k 0) (F'.e k 0)) :
    Rel P S 4 4 (getTransform F) (getTransform F') := by
  have := rel_homog (((rel_rotZ (h.over _ _) (ha 3 (by omega) (by omega))).mtimes (rel_rotY (h.over _ _) (ha 4 (by omega) (by omega)))).mtimes
    (rel_rotX (h.over _ _) (ha 5 (by omega) (by omega)))) (h.block (r0 := 0) (nr := 3) (c0 := 0) (nc := 1) (by omega) (by omega))
  exact ⟨⟨this.ok, h.rows.ge⟩, rfl, rfl, rfl, rfl, this.over, this.eqv⟩

theorem rel_dhTemplate {row row' : SX} {q : Expr} {ty : String} (h : Rel P S 4 1 row row') (hq : q.fv ⊆ S) (hty : isP ty ∨ isR ty)
    (ha : Ang P (row.e 1 0) (row'.e 1 0))
    (hth : Ang P (if isP ty then row.e 3 0 else Expr.sadd (row.e 3 0) q) (if isP ty then row'.e 3 0 else Expr.sadd (row'.e 3 0) q)) :
    Rel P S 4 4 (dhTemplate row q ty) (dhTemplate row' q ty) := by
  have hX := rel_rotX (h.over 1 0) ha
  have hd : (if isP ty then Expr.sadd (row.e 2 0) q else row.e 2 0).fv ⊆ S ∧
      (if isP ty then Expr.sadd (row.e 2 0) q else row.e 2 0).Eqv P (if isP ty then Expr.sadd (row'.e 2 0) q else row'.e 2 0) := by
    split_ifs
    · exact ent_sadd (h.ent 2 0) ⟨hq, .refl _⟩
    · exact h.ent 2 0
  have ht : (if isP ty then row.e 3 0 else Expr.sadd (row.e 3 0) q).fv ⊆ S := by
    split_ifs
    · exact h.over 3 0
    · exact (ent_sadd (h.ent 3 0) ⟨hq, Expr.Eqv.refl (P := P) _⟩).1
  have := rel_homog (hX.mtimes (rel_rotZ ht hth)) ((hX.mtimes (rel_col3 (cst 0) (cst 0) hd)).add (rel_col3 (h.ent 0 0) (cst 0) (cst 0)))
  exact ⟨⟨this.ok, h.ok, h.rows.ge, hty⟩, rfl, rfl, rfl, rfl, this.over, this.eqv⟩

/-! ## Bases -/

/-- Two robots with the same joints and the same variables; the symbols of the variables have no given value. -/
structure Base.Like (P : Var → Option ℝ) (B B' : Base) : Prop where
  npos : 0 < B.n
  n : B'.n = B.n
  types : B'.types = B.types
  tyOk : ∀ i < B.n, isP (B.ty i) ∨ isR (B.ty i)
  q : B.q = SX.sym "q" B.n
  dq : B.dq = SX.sym "dq" B.n
  ddq : B.ddq = SX.sym "ddq" B.n
  d3q : B.d3q = SX.sym "d3q" B.n
  dqr : B.dqr = SX.sym "dqr" B.n
  ddqr : B.ddqr = SX.sym "ddqr" B.n
  w : B.w = SX.sym "w" 6
  q' : B'.q = B.q
  dq' : B'.dq = B.dq
  ddq' : B'.ddq = B.ddq
  d3q' : B'.d3q = B.d3q
  dqr' : B'.dqr = B.dqr
  ddqr' : B'.ddqr = B.ddqr
  w' : B'.w = B.w
  free : ∀ v : Var, v.name ∈ ["q", "dq", "ddq"] → P v = none
  alpha : ∀ i < B.n, Ang P (B.dh.e (i * 4 + 1) 0) (B'.dh.e (i * 4 + 1) 0)
  theta : ∀ i < B.n, Ang P (if isP (B.ty i) then B.dh.e (i * 4 + 3) 0 else Expr.sadd (B.dh.e (i * 4 + 3) 0) (B.q.e i 0))
    (if isP (B.ty i) then B'.dh.e (i * 4 + 3) 0 else Expr.sadd (B'.dh.e (i * 4 + 3) 0) (B.q.e i 0))
  angW : ∀ k, 3 ≤ k → k < 6 → Ang P (B.w2l.e k 0) (B'.w2l.e k 0)
  angE : ∀ k, 3 ≤ k → k < 6 → Ang P (B.ee.e k 0) (B'.ee.e k 0)

/-- The symbols of a variable belong to `S`. -/
def VarIn (S : Set Var) (name : String) (n : ℕ) : Prop := ∀ i < n, (⟨name, i⟩ : Var) ∈ S

/-- What a chain is computed from belongs to `S` and agrees. -/
structure Base.Kin (P : Var → Option ℝ) (S : Set Var) (B B' : Base) : Prop extends Base.Like P B B' where
  inq : VarIn S "q" B.n
  dh : Rel P S (B.n * 4) 1 B.dh B'.dh
  w2l : Rel P S 6 1 B.w2l B'.w2l

namespace Base

variable {B B' : Base}

omit [Fl] in
theorem VarIn.rel {name : String} {n : ℕ} (h : VarIn S name n) : Rel P S n 1 (SX.sym name n) (SX.sym name n) := Rel.sym h

section like

variable (h : Like P B B')
include h

theorem Like.symQ : Rel.Symbols P B.n B.q := by rw [h.q]; exact Rel.symbols_sym fun i => h.free _ (by simp)
theorem Like.symDq : Rel.Symbols P B.n B.dq := by rw [h.dq]; exact Rel.symbols_sym fun i => h.free _ (by simp)
theorem Like.symDdq : Rel.Symbols P B.n B.ddq := by rw [h.ddq]; exact Rel.symbols_sym fun i => h.free _ (by simp)
theorem Like.relQ (hs : VarIn S "q" B.n) : Rel P S B.n 1 B.q B'.q := by rw [h.q', h.q]; exact VarIn.rel hs
theorem Like.relDq (hs : VarIn S "dq" B.n) : Rel P S B.n 1 B.dq B'.dq := by rw [h.dq', h.dq]; exact VarIn.rel hs
theorem Like.relDdq (hs : VarIn S "ddq" B.n) : Rel P S B.n 1 B.ddq B'.ddq := by rw [h.ddq', h.ddq]; exact VarIn.rel hs
theorem Like.relD3q (hs : VarIn S "d3q" B.n) : Rel P S B.n 1 B.d3q B'.d3q := by rw [h.d3q', h.d3q]; exact VarIn.rel hs
theorem Like.relDqr (hs : VarIn S "dqr" B.n) : Rel P S B.n 1 B.dqr B'.dqr := by rw [h.dqr', h.dqr]; exact VarIn.rel hs
theorem Like.relDdqr (hs : VarIn S "ddqr" B.n) : Rel P S B.n 1 B.ddqr B'.ddqr := by rw [h.ddqr', h.ddqr]; exact VarIn.rel hs
theorem Like.relW (hs : VarIn S "w" 6) : Rel P S 6 1 B.w B'.w := by rw [h.w', h.w]; exact VarIn.rel hs

theorem Like.ty (i : ℕ) : B'.ty i = B.ty i := by simp only [Base.ty, h.types]

end like

/-! ### Chain -/

section kin

variable (h : Kin P S B B')
include h

theorem Kin.Ti0 : Rel P S 4 4 (B.Ti 0) (B'.Ti 0) := rel_getTransform h.w2l h.angW

omit h in
theorem rel_Ti_succ (L : Like P B B') (hq : VarIn S "q" B.n) (hd : Rel P S (B.n * 4) 1 B.dh B'.dh) {i : ℕ} (hi : i < B.n) :
    Rel P S 4 4 (B.Ti (i + 1)) (B'.Ti (i + 1)) := by
  have hqe := (L.relQ hq).ent i 0
  have := rel_dhTemplate (ty := B.ty i) (hd.block (r0 := i * 4) (nr := 4) (c0 := 0) (nc := 1) (by omega) (by omega)) hqe.1 (L.tyOk i hi)
    (by simpa [SX.block] using L.alpha i hi) (by simpa [SX.block] using L.theta i hi)
  refine ⟨⟨this.ok, ?_, ?_⟩, rfl, rfl, rfl, rfl, this.over, fun a b => ?_⟩
  · rw [L.q]; trivial
  · rw [L.q]; exact hi
  · have e := this.eqv a b
    simp only [Base.Ti, L.q', L.ty] at e ⊢
    exact e

theorem Kin.Tis {i : ℕ} (hi : i < B.n) : Rel P S 4 4 (B.Ti (i + 1)) (B'.Ti (i + 1)) := rel_Ti_succ h.toLike h.inq h.dh hi

theorem Kin.T0 {i : ℕ} (hi : i ≤ B.n) : Rel P S 4 4 (B.T0 i) (B'.T0 i) := by
  induction i with
  | zero => exact h.Ti0
  | succ i ih => exact (ih (by omega)).mtimes (h.Tis (by omega))

theorem Kin.T0ee (he : Rel P S 6 1 B.ee B'.ee) : Rel P S 4 4 B.T0ee B'.T0ee := by
  unfold Base.T0ee
  rw [h.n]
  exact (h.T0 le_rfl).mtimes (rel_getTransform he h.angE)

theorem Kin.R0 {i : ℕ} (hi : i ≤ B.n) : Rel P S 3 3 (B.R0 i) (B'.R0 i) := (h.T0 hi).block (by omega) (by omega)
theorem Kin.P0 {i : ℕ} (hi : i ≤ B.n) : Rel P S 3 1 (B.P0 i) (B'.P0 i) := (h.T0 hi).block (by omega) (by omega)
theorem Kin.K0 {i : ℕ} (hi : i ≤ B.n) : Rel P S 3 1 (B.K0 i) (B'.K0 i) := (h.T0 hi).block (by omega) (by omega)

theorem Kin.posCol {O O' : SX} (hO : Rel P S 3 1 O O') {j : ℕ} (hj : j < B.n) : Rel P S 3 1 (B.posCol O j) (B'.posCol O' j) := by
  unfold Base.posCol
  rw [h.ty]
  split_ifs with hp
  · exact h.K0 (by omega)
  · have := (rel_hatX (h.K0 (i := j + 1) (by omega))).mtimes (hO.sub (h.P0 (i := j + 1) (by omega)))
    exact { this with ok := ⟨this.ok, (h.tyOk j hj).resolve_left hp⟩ }

theorem Kin.orCol {j : ℕ} (hj : j < B.n) : Rel P S 3 1 (B.orCol j) (B'.orCol j) := by
  unfold Base.orCol
  rw [h.ty]
  split_ifs
  · exact Rel.zeros _ _
  · exact h.K0 (by omega)

theorem Kin.posJac {O O' : SX} (hO : Rel P S 3 1 O O') {im : ℕ} (hi : im < B.n) : Rel P S 3 B.n (B.posJac O im) (B'.posJac O' im) where
  ok := ⟨hO.ok, fun j hj => (h.posCol hO (by omega)).ok⟩
  rows := rfl
  cols := rfl
  rows' := rfl
  cols' := h.n
  over a j := by
    simp only [Base.posJac]
    split_ifs with hj
    · exact (h.posCol hO hj.2).over _ _
    · simp
  eqv a j := by
    simp only [Base.posJac, h.n]
    split_ifs with hj
    · exact (h.posCol hO hj.2).eqv _ _
    · exact .refl _

theorem Kin.orJac {im : ℕ} (hi : im < B.n) : Rel P S 3 B.n (B.orJac im) (B'.orJac im) where
  ok := fun j hj => (h.orCol (by omega)).ok
  rows := rfl
  cols := rfl
  rows' := rfl
  cols' := h.n
  over a j := by
    simp only [Base.orJac]
    split_ifs with hj
    · exact (h.orCol hj.2).over _ _
    · simp
  eqv a j := by
    simp only [Base.orJac, h.n]
    split_ifs with hj
    · exact (h.orCol hj.2).eqv _ _
    · exact .refl _

theorem Kin.imod (i : ℕ) : B'.imod i = B.imod i := by simp only [Base.imod, h.n]
omit [Fl] h in
theorem imod_lt (hn : 0 < B.n) (i : ℕ) : B.imod i < B.n := by unfold Base.imod; split_ifs <;> omega

theorem Kin.Jw (i : ℕ) : Rel P S 3 B.n (B.Jw i) (B'.Jw i) := by
  unfold Base.Jw
  rw [h.imod]
  exact h.orJac (imod_lt h.npos i)

theorem Kin.Jv {i : ℕ} (hi : i ≠ B.n) : Rel P S 3 B.n (B.Jv i) (B'.Jv i) := by
  unfold Base.Jv
  simp only [h.imod, h.n, if_neg hi]
  exact h.posJac (h.P0 (imod_lt h.npos i)) (imod_lt h.npos i)

theorem Kin.J {i : ℕ} (hi : i ≠ B.n) : Rel P S 6 B.n (B.J i) (B'.J i) := (h.Jv hi).vcat (h.Jw i)

theorem Kin.Jvn (he : Rel P S 6 1 B.ee B'.ee) : Rel P S 3 B.n (B.Jv B.n) (B'.Jv B.n) := by
  unfold Base.Jv
  simp only [h.imod, h.n, if_true]
  have hl := imod_lt h.npos B.n
  exact (h.posJac (h.P0 hl) hl).sub ((((h.R0 hl).mtimes (rel_hatX ((rel_getTransform he h.angE).block (by omega) (by omega)))).mtimes
    (h.R0 hl).transp).mtimes (h.orJac hl))

variable (he : Rel P S 6 1 B.ee B'.ee)
include he

theorem Kin.Jn : Rel P S 6 B.n (B.J B.n) (B'.J B.n) := (h.Jvn he).vcat (h.Jw B.n)
theorem Kin.Jee : Rel P S 6 B.n B.Jee B'.Jee := by
  unfold Base.Jee
  rw [h.n]
  exact h.Jn he

theorem Kin.invJn : Rel P S 6 6 B.invJn B'.invJn :=
  Rel.inv (((h.Jee he).mtimes (h.Jee he).transp).add (Rel.scale (by simp) (.refl _) (Rel.eye 6)))
theorem Kin.JeePinv : Rel P S B.n 6 B.JeePinv B'.JeePinv := (h.Jee he).transp.mtimes (h.invJn he)

theorem Kin.JeeDot (hdq : VarIn S "dq" B.n) : Rel P S 6 B.n B.JeeDot B'.JeeDot := by
  unfold Base.JeeDot
  rw [h.q']
  exact Rel.jtimes h.symQ (h.relDq hdq) (h.Jee he)

theorem Kin.JeeDdot (hdq : VarIn S "dq" B.n) (hddq : VarIn S "ddq" B.n) : Rel P S 6 B.n B.JeeDdot B'.JeeDdot := by
  unfold Base.JeeDdot
  rw [h.q']
  have e := h.dq'
  have h1 := Rel.jtimes h.symQ (h.relDq hdq) (h.JeeDot he hdq)
  have h2 := Rel.jtimes h.symDq (h.relDdq hddq) (h.JeeDot he hdq)
  rw [e] at h1 ⊢
  exact h1.add h2

end kin

/-! ### Dynamics -/

section dyn

variable (h : Kin P S B B') (hy : Rel P S (B.n * 10) 1 B.dyn B'.dyn)
include hy

omit [Fl] in
theorem rel_com {i : ℕ} (hi : i < B.n) : Rel P S 3 1 (B.com i) (B'.com i) := by
  have := rel_col3 (hy.ent (i * nPar + 1) 0) (hy.ent (i * nPar + 2) 0) (hy.ent (i * nPar + 3) 0)
  exact ⟨⟨hy.ok, by rw [hy.rows]; simp only [nPar]; omega⟩, rfl, rfl, rfl, rfl, this.over, this.eqv⟩

omit [Fl] in
theorem rel_inertia {i : ℕ} (hi : i < B.n) : Rel P S 3 3 (B.inertia i) (B'.inertia i) := by
  have := rel_mat33 (hy.ent (i * nPar + 4) 0) (hy.ent (i * nPar + 5) 0) (hy.ent (i * nPar + 6) 0) (hy.ent (i * nPar + 5) 0)
    (hy.ent (i * nPar + 7) 0) (hy.ent (i * nPar + 8) 0) (hy.ent (i * nPar + 6) 0) (hy.ent (i * nPar + 8) 0) (hy.ent (i * nPar + 9) 0)
  exact ⟨⟨hy.ok, by rw [hy.rows]; simp only [nPar]; omega⟩, rfl, rfl, rfl, rfl, this.over, this.eqv⟩

include h

theorem Kin.Ocm {i : ℕ} (hi : i < B.n) : Rel P S 3 1 (B.Ocm i) (B'.Ocm i) :=
  (h.P0 (i := i + 1) (by omega)).add ((h.R0 (i := i + 1) (by omega)).mtimes (rel_com hy hi))
theorem Kin.Jcv {i : ℕ} (hi : i < B.n) : Rel P S 3 B.n (B.Jcv i) (B'.Jcv i) := h.posJac (h.Ocm hy hi) hi
theorem Kin.Jcm {i : ℕ} (hi : i < B.n) : Rel P S 6 B.n (B.Jcm i) (B'.Jcm i) := (h.Jcv hy hi).vcat (h.orJac hi)

theorem Kin.Mi {i : ℕ} (hi : i < B.n) : Rel P S B.n B.n (B.Mi i) (B'.Mi i) := by
  have hR := h.R0 (i := i + 1) (by omega)
  have hw := h.orJac hi
  exact (Rel.scale (hy.over _ _) (hy.eqv _ _) ((h.Jcv hy hi).transp.mtimes (h.Jcv hy hi))).add
    ((((hw.transp.mtimes hR).mtimes (rel_inertia hy hi)).mtimes hR.transp).mtimes hw)

theorem Kin.Macc {k : ℕ} (hk : k ≤ B.n) : Rel P S B.n B.n (B.Macc k) (B'.Macc k) := by
  induction k with
  | zero => unfold Base.Macc; rw [h.n]; exact Rel.zeros _ _
  | succ k ih => exact (ih (by omega)).add (h.Mi hy (by omega))

theorem Kin.M : Rel P S B.n B.n B.M B'.M := by
  unfold Base.M
  rw [h.n]
  exact h.Macc hy le_rfl

theorem Kin.Gacc (hg : Rel P S 3 1 B.g B'.g) {k : ℕ} (hk : k ≤ B.n) : Rel P S B.n 1 (B.Gacc k) (B'.Gacc k) := by
  induction k with
  | zero => unfold Base.Gacc; rw [h.n]; exact Rel.zeros _ _
  | succ k ih =>
    have e := ent_sneg (hy.ent (k * nPar) 0)
    exact (ih (by omega)).add (Rel.scale e.1 e.2 (hg.transp.mtimes (h.Jcv hy (i := k) (by omega)))).transp

theorem Kin.G (hg : Rel P S 3 1 B.g B'.g) : Rel P S B.n 1 B.G B'.G := by
  unfold Base.G
  rw [h.n]
  exact h.Gacc hy hg le_rfl

theorem Kin.Gdot (hg : Rel P S 3 1 B.g B'.g) (hdq : VarIn S "dq" B.n) : Rel P S B.n 1 B.Gdot B'.Gdot := by
  unfold Base.Gdot
  rw [h.q']
  exact Rel.jtimes h.symQ (h.relDq hdq) (h.G hy hg)

theorem Kin.Gddot (hg : Rel P S 3 1 B.g B'.g) (hdq : VarIn S "dq" B.n) (hddq : VarIn S "ddq" B.n) : Rel P S B.n 1 B.Gddot B'.Gddot := by
  unfold Base.Gddot
  have h1 := Rel.jtimes h.symQ (h.relDq hdq) (h.Gdot hy hg hdq)
  have h2 := Rel.jtimes h.symDq (h.relDdq hddq) (h.Gdot hy hg hdq)
  rw [h.dq'] at h1
  rw [h.q', h.dq']
  exact h1.add h2

variable (hdq : VarIn S "dq" B.n)
include hdq

theorem Kin.C : Rel P S B.n B.n B.C B'.C := by
  unfold Base.C
  rw [h.q']
  exact rel_stdCmatrix h.symQ (h.M hy) (h.relDq hdq) (rel_dqSelect (h.relDq hdq))

theorem Kin.Cstd : Rel P S B.n B.n B.Cstd B'.Cstd := by
  unfold Base.Cstd
  rw [h.q']
  exact rel_stdCmatrixClassic h.symQ (h.M hy) (h.relDq hdq)

theorem Kin.Mdot : Rel P S B.n B.n B.Mdot B'.Mdot := by
  unfold Base.Mdot
  rw [h.q']
  exact Rel.jtimes h.symQ (h.relDq hdq) (h.M hy)

variable (hddq : VarIn S "ddq" B.n)
include hddq

theorem Kin.Mddot : Rel P S B.n B.n B.Mddot B'.Mddot := by
  unfold Base.Mddot
  have h1 := Rel.jtimes h.symQ (h.relDq hdq) (h.Mdot hy hdq)
  have h2 := Rel.jtimes h.symDq (h.relDdq hddq) (h.Mdot hy hdq)
  rw [h.dq'] at h1
  rw [h.q', h.dq']
  exact h1.add h2

theorem Kin.Cdot : Rel P S B.n B.n B.Cdot B'.Cdot := by
  unfold Base.Cdot
  have h1 := Rel.jtimes h.symQ (h.relDq hdq) (h.C hy hdq)
  have h2 := Rel.jtimes h.symDq (h.relDdq hddq) (h.C hy hdq)
  rw [h.dq'] at h1
  rw [h.q', h.dq']
  exact h1.add h2

theorem Kin.Cddot (h3 : VarIn S "d3q" B.n) : Rel P S B.n B.n B.Cddot B'.Cddot := by
  unfold Base.Cddot
  have h1 := Rel.jtimes h.symQ (h.relDq hdq) (h.Cdot hy hdq hddq)
  have h2 := Rel.jtimes h.symDq (h.relDdq hddq) (h.Cdot hy hdq hddq)
  have h3 := Rel.jtimes h.symDdq (h.relD3q h3) (h.Cdot hy hdq hddq)
  rw [h.dq'] at h1
  rw [h.ddq'] at h2
  rw [h.q', h.dq', h.ddq']
  exact (h1.add h2).add h3

end dyn

/-! ### Regressors -/

section reg

variable (h : Kin P S B B')
include h

theorem Kin.Yv {i : ℕ} (hi : i < B.n) : Rel P S 3 B.n (B.Yv i) (B'.Yv i) := by
  unfold Base.Yv
  rw [h.n]
  exact (h.J (by omega)).block (by omega) (by omega)
theorem Kin.Yw {i : ℕ} (hi : i < B.n) : Rel P S 3 B.n (B.Yw i) (B'.Yw i) := by
  unfold Base.Yw
  rw [h.n]
  exact (h.J (by omega)).block (by omega) (by omega)

theorem Kin.M0 {i : ℕ} (hi : i < B.n) : Rel P S B.n B.n (B.M0 i) (B'.M0 i) := (h.Yv hi).transp.mtimes (h.Yv hi)
theorem Kin.M1 {i : ℕ} (hi : i < B.n) (l : ℕ) : Rel P S B.n B.n (B.M1 i l) (B'.M1 i l) := by
  have hR := h.R0 (i := i + 1) (by omega)
  have hv := h.Yv hi
  have hw := h.Yw hi
  exact ((((hw.transp.mtimes hR).mtimes (rel_matQ l)).mtimes hR.transp).mtimes hv).sub
    ((((hv.transp.mtimes hR).mtimes (rel_matQ l)).mtimes hR.transp).mtimes hw)
theorem Kin.M2 {i : ℕ} (hi : i < B.n) (l : ℕ) : Rel P S B.n B.n (B.M2 i l) (B'.M2 i l) := by
  have hR := h.R0 (i := i + 1) (by omega)
  have hw := h.Yw hi
  exact (((hw.transp.mtimes hR).mtimes (rel_matE l)).mtimes hR.transp).mtimes hw

theorem Kin.cor (hdq : VarIn S "dq" B.n) {A A' : SX} (hA : Rel P S B.n B.n A A') : Rel P S B.n B.n (B.cor A) (B'.cor A') := by
  unfold Base.cor
  rw [h.q']
  exact rel_stdCmatrix h.symQ hA (h.relDq hdq) (rel_dqSelect (h.relDq hdq))

theorem Kin.dX0 (ha : VarIn S "ddqr" B.n) {i : ℕ} (hi : i < B.n) : Rel P S B.n 1 (B.dX0 i) (B'.dX0 i) := (h.M0 hi).mtimes (h.relDdqr ha)
theorem Kin.dX1 (ha : VarIn S "ddqr" B.n) {i : ℕ} (hi : i < B.n) : Rel P S B.n 3 (B.dX1 i) (B'.dX1 i) := by
  unfold Base.dX1
  rw [h.n]
  exact rel_ofCols fun l _ => (h.M1 hi l).mtimes (h.relDdqr ha)
theorem Kin.dX2 (ha : VarIn S "ddqr" B.n) {i : ℕ} (hi : i < B.n) : Rel P S B.n 6 (B.dX2 i) (B'.dX2 i) := by
  unfold Base.dX2
  rw [h.n]
  exact rel_ofCols fun l _ => (h.M2 hi l).mtimes (h.relDdqr ha)

section

variable (hdq : VarIn S "dq" B.n) (hr : VarIn S "dqr" B.n)
include hdq hr

theorem Kin.W0 {i : ℕ} (hi : i < B.n) : Rel P S B.n 1 (B.W0 i) (B'.W0 i) := ((h.cor hdq (h.M0 hi)).mtimes (h.relDqr hr)).neg
theorem Kin.W1 {i : ℕ} (hi : i < B.n) : Rel P S B.n 3 (B.W1 i) (B'.W1 i) := by
  unfold Base.W1
  rw [h.n]
  exact rel_ofCols fun l _ => ((h.cor hdq (h.M1 hi l)).mtimes (h.relDqr hr)).neg
theorem Kin.W2 {i : ℕ} (hi : i < B.n) : Rel P S B.n 6 (B.W2 i) (B'.W2 i) := by
  unfold Base.W2
  rw [h.n]
  exact rel_ofCols fun l _ => ((h.cor hdq (h.M2 hi l)).mtimes (h.relDqr hr)).neg

end

theorem Kin.Z0 (hg : Rel P S 3 1 B.g B'.g) {i : ℕ} (hi : i < B.n) : Rel P S B.n 1 (B.Z0 i) (B'.Z0 i) :=
  ((h.Yv hi).transp.mtimes hg).neg
theorem Kin.Z1 (hg : Rel P S 3 1 B.g B'.g) {i : ℕ} (hi : i < B.n) : Rel P S B.n 3 (B.Z1 i) (B'.Z1 i) := by
  unfold Base.Z1
  rw [h.q']
  exact (Rel.jacobian h.symQ ((h.R0 (i := i + 1) (by omega)).transp.mtimes hg)).transp.neg

theorem Kin.stack {f f' : ℕ → SX} (hf : ∀ i < B.n, Rel P S B.n 10 (f i) (f' i)) : Rel P S B.n (10 * B.n) (B.stack f) (B'.stack f') where
  ok i hi := ⟨(hf i hi).ok, (hf i hi).rows, (hf i hi).cols⟩
  rows := rfl
  cols := rfl
  rows' := h.n
  cols' := by simp only [Base.stack, h.n, nPar]
  over a c := by
    simp only [Base.stack]
    split_ifs with hc
    · exact (hf _ (Nat.div_lt_of_lt_mul hc)).over _ _
    · simp
  eqv a c := by
    simp only [Base.stack, h.n]
    split_ifs with hc
    · exact (hf _ (Nat.div_lt_of_lt_mul hc)).eqv _ _
    · exact .refl _

theorem Kin.regM (ha : VarIn S "ddqr" B.n) : Rel P S B.n (10 * B.n) B.regM B'.regM :=
  h.stack fun _ hi => ((h.dX0 ha hi).hcat (h.dX1 ha hi)).hcat (h.dX2 ha hi)
theorem Kin.regC (hdq : VarIn S "dq" B.n) (hr : VarIn S "dqr" B.n) : Rel P S B.n (10 * B.n) B.regC B'.regC :=
  h.stack fun _ hi => ((h.W0 hdq hr hi).neg.hcat (h.W1 hdq hr hi).neg).hcat (h.W2 hdq hr hi).neg
theorem Kin.regG (hg : Rel P S 3 1 B.g B'.g) : Rel P S B.n (10 * B.n) B.regG B'.regG :=
  h.stack fun i hi => by
    unfold Base.regGi
    rw [h.n]
    exact ((h.Z0 hg hi).hcat (h.Z1 hg hi)).hcat (Rel.zeros B.n 6)
theorem Kin.Yr (hdq : VarIn S "dq" B.n) (hr : VarIn S "dqr" B.n) (ha : VarIn S "ddqr" B.n) (hg : Rel P S 3 1 B.g B'.g) :
    Rel P S B.n (10 * B.n) B.Yr B'.Yr :=
  h.stack fun _ hi => ((((h.dX0 ha hi).sub (h.W0 hdq hr hi)).add (h.Z0 hg hi)).hcat
    (((h.dX1 ha hi).sub (h.W1 hdq hr hi)).add (h.Z1 hg hi))).hcat ((h.dX2 ha hi).sub (h.W2 hdq hr hi))

end reg

end Base

end

end Thunder
