import Verif.Lemmas.Rounding
import Verif.Lemmas.Smooth
import Verif.Lemmas.SystemVal
import Verif.Lib.LeastSquares

/-!
# Rounding errors of the functions of the library

The entries of all registered matrices are tame.
-/

open scoped Classical

namespace Thunder

noncomputable section

theorem tame_sumN {S : Set Var} {n : ℕ} {f : ℕ → Expr} (h : ∀ k < n, Expr.Tame S (f k)) : Expr.Tame S (sumN n f) := by
  apply Expr.TameOn.sumE
  intro e he
  simp only [List.mem_map, List.mem_range] at he
  obtain ⟨k, hk, rfl⟩ := he
  exact h k hk

namespace SX

/-- All entries are tame. -/
def Tame (S : Set Var) (A : SX) : Prop := ∀ i j, Expr.Tame S (A.e i j)

variable {S : Set Var} {A B : SX}

theorem Tame.mono {T : Set Var} (hA : Tame S A) (h : T ⊆ S) : Tame T A := fun i j => (hA i j).mono h
theorem Tame.mtimes (hA : Tame S A) (hB : Tame S B) : Tame S (mtimes A B) := fun i j =>
  tame_sumN fun k _ => (hA i k).smul (hB k j)
theorem Tame.add (hA : Tame S A) (hB : Tame S B) : Tame S (add A B) := fun i j => (hA i j).sadd (hB i j)
theorem Tame.sub (hA : Tame S A) (hB : Tame S B) : Tame S (sub A B) := fun i j => (hA i j).ssub (hB i j)
theorem Tame.neg (hA : Tame S A) : Tame S (neg A) := fun i j => (hA i j).sneg
theorem Tame.scale {s : Expr} (hs : Expr.Tame S s) (hA : Tame S A) : Tame S (scale s A) := fun i j => hs.smul (hA i j)
theorem Tame.divc (hA : Tame S A) {c : ℝ} (hc : c ≠ 0) : Tame S (divc A c) := fun i j =>
  (hA i j).sdiv (.const c) (abs_pos.2 hc) fun _ _ => le_refl _
theorem Tame.inv (hA : Tame S A) {n : ℕ} (hn : A.rows = n) {m : ℝ} (h : ∀ ρ, ∃ Y, SX.val ρ A n n * Y = 1 ∧ ∀ k l, |Y k l| ≤ m) : Tame S (inv A) := by
  subst hn
  intro i j
  simp only [SX.inv]
  split_ifs
  · exact .inv (fun k l => hA k l) (fun ρ _ => h ρ) _ _
  · exact .const _
theorem Tame.transp (hA : Tame S A) : Tame S (transp A) := fun i j => hA j i
theorem Tame.zeros (r c : ℕ) : Tame S (zeros r c) := fun _ _ => .const _
theorem Tame.eye (n : ℕ) : Tame S (eye n) := fun i j => by simp only [SX.eye]; split_ifs <;> exact .const _
theorem Tame.block (hA : Tame S A) (r0 nr c0 nc : ℕ) : Tame S (block A r0 nr c0 nc) := fun i j => by
  simp only [SX.block]; split_ifs
  · exact hA _ _
  · exact .const _
theorem Tame.vcat (hA : Tame S A) (hB : Tame S B) : Tame S (vcat A B) := fun i j => by
  simp only [SX.vcat]; split_ifs
  · exact hA _ _
  · exact hB _ _
theorem Tame.hcat (hA : Tame S A) (hB : Tame S B) : Tame S (hcat A B) := fun i j => by
  simp only [SX.hcat]; split_ifs
  · exact hA _ _
  · exact hB _ _
theorem tame_Dx {x : Expr} (hx : Expr.fv x ⊆ S) {e : Expr} (h : Expr.Tame S e) : Expr.Tame S (Dx x e) := by
  cases x <;> first | exact .const _ | exact h.D (hx rfl)
theorem Tame.jacobian (hA : Tame S A) {x : SX} (hx : Over S x) : Tame S (jacobian A x) := fun _ _ => tame_Dx (hx _ _) (hA _ _)
theorem Tame.jtimes (hA : Tame S A) {v : SX} (hv : Tame S v) {x : SX} (hx : Over S x) : Tame S (jtimes A x v) := fun i j =>
  tame_sumN fun k _ => (tame_Dx (hx _ _) (hA i j)).smul (hv k 0)
theorem Tame.sym (name : String) (n : ℕ) : Tame S (sym name n) := fun i j => by
  simp only [SX.sym]; split_ifs
  · exact .var _
  · exact .const _

/-- Every matrix is over all symbols. -/
theorem over_univ (x : SX) : Over Set.univ x := fun _ _ => Set.subset_univ _

end SX

theorem ParVec.tame {name k A} (h : ParVec name k A) (S : Set Var) : SX.Tame S A := fun i j => by
  rcases h.e i j with ⟨h', _⟩ | ⟨c, h'⟩ <;> rw [h']
  · exact .var _
  · exact .const _

theorem tame_mat33 {a b c d e f g h i : Expr} (ha : a.Tame Set.univ) (hb : b.Tame Set.univ) (hc : c.Tame Set.univ) (hd : d.Tame Set.univ)
    (he : e.Tame Set.univ) (hf : f.Tame Set.univ) (hg : g.Tame Set.univ) (hh : h.Tame Set.univ) (hi : i.Tame Set.univ) :
    SX.Tame Set.univ (mat33 a b c d e f g h i) := by
  intro r s
  simp only [mat33]
  split <;> first | assumption | exact .const _

theorem tame_col3 {a b c : Expr} (ha : a.Tame Set.univ) (hb : b.Tame Set.univ) (hc : c.Tame Set.univ) : SX.Tame Set.univ (col3 a b c) := by
  intro r s
  simp only [col3]
  split <;> first | assumption | exact .const _

theorem tame_hatX {v : SX} (h : SX.Tame Set.univ v) : SX.Tame Set.univ (hatX v) := by
  have := tame_mat33 (a := .const 0) (b := Expr.sneg (v.e 2 0)) (c := v.e 1 0) (d := v.e 2 0) (e := .const 0)
    (f := Expr.sneg (v.e 0 0)) (g := Expr.sneg (v.e 1 0)) (h := v.e 0 0) (i := .const 0)
    (.const _) (h _ _).sneg (h _ _) (h _ _) (.const _) (h _ _).sneg (h _ _).sneg (h _ _) (.const _)
  exact this

theorem tame_homog {R p : SX} (hR : SX.Tame Set.univ R) (hp : SX.Tame Set.univ p) : SX.Tame Set.univ (homog R p) := by
  intro i j
  simp only [homog]
  split_ifs
  · exact hR _ _
  · exact hp _ _
  · exact .const _
  · exact .const _

theorem tame_dqSelect {dq : SX} (h : SX.Tame Set.univ dq) : SX.Tame Set.univ (dqSelect dq) := by
  intro i j
  simp only [dqSelect]
  split_ifs
  · exact (SX.Tame.eye _ _ _).smul (h _ _)
  · exact .const _

theorem tame_reshapeSq {A : SX} (h : SX.Tame Set.univ A) (n : ℕ) : SX.Tame Set.univ (reshapeSq A n) := by
  intro i j
  simp only [reshapeSq]
  split_ifs
  · exact h _ _
  · exact .const _

theorem tame_stdCmatrix {M q dq sel : SX} (hM : SX.Tame Set.univ M) (hdq : SX.Tame Set.univ dq)
    (hs : SX.Tame Set.univ sel) : SX.Tame Set.univ (stdCmatrix M q dq sel) :=
  SX.Tame.divc (((tame_reshapeSq ((hM.jacobian (SX.over_univ q)).mtimes hdq) _).add (hs.mtimes (hM.jacobian (SX.over_univ q)))).sub
    (hs.mtimes (hM.jacobian (SX.over_univ q))).transp) two_ne_zero

section

variable [Fl]

theorem tame_zis_ccos {t : Expr} (h : t.Tame Set.univ) : (zis (ccos t)).Tame Set.univ := by
  cases t <;> first | exact h.cos | (simp only [ccos, zis]; split_ifs <;> exact .const _)
theorem tame_zis_csin {t : Expr} (h : t.Tame Set.univ) : (zis (csin t)).Tame Set.univ := by
  cases t <;> first | exact h.sin | (simp only [csin, zis]; split_ifs <;> exact .const _)
theorem tame_zis_cneg_csin {t : Expr} (h : t.Tame Set.univ) : (zis (cneg (csin t))).Tame Set.univ := by
  cases t <;> first | exact h.sin.neg | (simp only [csin, cneg, zis]; split_ifs <;> exact .const _)

theorem tame_rotX {t : Expr} (h : t.Tame Set.univ) : SX.Tame Set.univ (rotX t) := by
  have h1 := tame_zis_ccos h
  have h2 := tame_zis_csin h
  have h3 := tame_zis_cneg_csin h
  apply tame_mat33 <;> first | assumption | exact .const _
theorem tame_rotY {t : Expr} (h : t.Tame Set.univ) : SX.Tame Set.univ (rotY t) := by
  have h1 := tame_zis_ccos h
  have h2 := tame_zis_csin h
  have h3 := tame_zis_cneg_csin h
  apply tame_mat33 <;> first | assumption | exact .const _
theorem tame_rotZ {t : Expr} (h : t.Tame Set.univ) : SX.Tame Set.univ (rotZ t) := by
  have h1 := tame_zis_ccos h
  have h2 := tame_zis_csin h
  have h3 := tame_zis_cneg_csin h
  apply tame_mat33 <;> first | assumption | exact .const _

theorem tame_getTransform {F : SX} (h : SX.Tame Set.univ F) : SX.Tame Set.univ (getTransform F) :=
  tame_homog (((tame_rotZ (h _ _)).mtimes (tame_rotY (h _ _))).mtimes (tame_rotX (h _ _))) (h.block _ _ _ _)

theorem tame_dhTemplate {row : SX} {q : Expr} {ty : String} (h : SX.Tame Set.univ row) (hq : q.Tame Set.univ) :
    SX.Tame Set.univ (dhTemplate row q ty) := by
  refine tame_homog ((tame_rotX (h _ _)).mtimes (tame_rotZ ?_))
    (((tame_rotX (h _ _)).mtimes (tame_col3 (a := .const 0) (b := .const 0) (.const _) (.const _) ?_)).add
      (tame_col3 (b := .const 0) (c := .const 0) (h _ _) (.const _) (.const _)))
  · split_ifs
    · exact h _ _
    · exact (h _ _).sadd hq
  · split_ifs
    · exact (h _ _).sadd hq
    · exact h _ _

namespace Base

variable {B : Base} (hB : B.WF)
include hB

omit [Fl] in
theorem tame_q : SX.Tame Set.univ B.q := by rw [hB.q]; exact SX.Tame.sym _ _
omit [Fl] in
theorem tame_dq : SX.Tame Set.univ B.dq := by rw [hB.dq]; exact SX.Tame.sym _ _
omit [Fl] in
theorem tame_ddq : SX.Tame Set.univ B.ddq := by rw [hB.ddq]; exact SX.Tame.sym _ _
omit [Fl] in
theorem tame_d3q : SX.Tame Set.univ B.d3q := by rw [hB.d3q]; exact SX.Tame.sym _ _

theorem tame_Ti (i) : SX.Tame Set.univ (B.Ti i) := by
  cases i with
  | zero => exact tame_getTransform (hB.w2l.tame Set.univ)
  | succ i => exact tame_dhTemplate ((hB.dh.tame Set.univ).block _ _ _ _) (tame_q hB _ _)

theorem tame_T0 (i) : SX.Tame Set.univ (B.T0 i) := by
  induction i with
  | zero => exact tame_Ti hB 0
  | succ i ih => exact ih.mtimes (tame_Ti hB _)

theorem tame_T0ee : SX.Tame Set.univ B.T0ee := (tame_T0 hB _).mtimes (tame_getTransform (hB.ee.tame Set.univ))

theorem tame_R0 (i) : SX.Tame Set.univ (B.R0 i) := (tame_T0 hB i).block _ _ _ _
theorem tame_P0 (i) : SX.Tame Set.univ (B.P0 i) := (tame_T0 hB i).block _ _ _ _
theorem tame_K0 (i) : SX.Tame Set.univ (B.K0 i) := (tame_T0 hB i).block _ _ _ _

theorem tame_posCol {O : SX} (hO : SX.Tame Set.univ O) (j) : SX.Tame Set.univ (B.posCol O j) := by
  unfold posCol
  split_ifs
  · exact tame_K0 hB _
  · exact (tame_hatX (tame_K0 hB _)).mtimes (hO.sub (tame_P0 hB _))

theorem tame_orCol (j) : SX.Tame Set.univ (B.orCol j) := by
  unfold orCol
  split_ifs
  · exact SX.Tame.zeros _ _
  · exact tame_K0 hB _

theorem tame_posJac {O : SX} (hO : SX.Tame Set.univ O) (im) : SX.Tame Set.univ (B.posJac O im) := by
  intro a j
  simp only [posJac]
  split_ifs
  · exact tame_posCol hB hO _ _ _
  · exact .const _

theorem tame_orJac (im) : SX.Tame Set.univ (B.orJac im) := by
  intro a j
  simp only [orJac]
  split_ifs
  · exact tame_orCol hB _ _ _
  · exact .const _

theorem tame_Jv (i) : SX.Tame Set.univ (B.Jv i) := by
  unfold Jv
  simp only
  split_ifs
  · exact (tame_posJac hB (tame_P0 hB _) _).sub ((((tame_R0 hB _).mtimes
      (tame_hatX ((tame_getTransform (hB.ee.tame Set.univ)).block _ _ _ _))).mtimes (tame_R0 hB _).transp).mtimes
      (tame_orJac hB _))
  · exact tame_posJac hB (tame_P0 hB _) _

theorem tame_J (i) : SX.Tame Set.univ (B.J i) := (tame_Jv hB i).vcat (tame_orJac hB _)
theorem tame_Jee : SX.Tame Set.univ B.Jee := tame_J hB _
theorem tame_JeePinv : SX.Tame Set.univ B.JeePinv := by
  have hrows : B.Jee.rows = 6 := by
    simp only [Base.Jee, Base.J, SX.vcat, Base.Jv, if_true]; rfl
  have hcols : B.Jee.cols = B.n := by
    simp only [Base.Jee, Base.J, SX.vcat, Base.Jv, if_true]; rfl
  refine (tame_Jee hB).transp.mtimes (SX.Tame.inv (((tame_Jee hB).mtimes (tame_Jee hB).transp).add ((SX.Tame.eye 6).scale (.const _))) (n := 6) (m := 1 / 0.02)
    (by exact hrows) fun ρ => ?_)
  rw [SX.val_add, SX.val_mtimes ρ _ _ 6 B.n 6 hcols, SX.val_transp, SX.val_scale, SX.val_eye, Expr.eval_const]
  exact ⟨_, Matrix.mul_nonsing_inv _ (isUnit_damped _ (by norm_num)), inv_damped_le _ (by norm_num)⟩

theorem tame_JeeDot : SX.Tame Set.univ B.JeeDot := (tame_Jee hB).jtimes (tame_dq hB) (SX.over_univ _)

omit [Fl] in
theorem tame_com (i) : SX.Tame Set.univ (B.com i) :=
  tame_col3 (hB.dyn.tame Set.univ _ _) (hB.dyn.tame Set.univ _ _) (hB.dyn.tame Set.univ _ _)
omit [Fl] in
theorem tame_inertia (i) : SX.Tame Set.univ (B.inertia i) := by
  have h := hB.dyn.tame Set.univ
  exact tame_mat33 (h _ _) (h _ _) (h _ _) (h _ _) (h _ _) (h _ _) (h _ _) (h _ _) (h _ _)
theorem tame_Ocm (i) : SX.Tame Set.univ (B.Ocm i) :=
  (tame_P0 hB _).add ((tame_R0 hB _).mtimes (tame_com hB i))
theorem tame_Jcv (i) : SX.Tame Set.univ (B.Jcv i) := tame_posJac hB (tame_Ocm hB i) i
theorem tame_Jcw (i) : SX.Tame Set.univ (B.Jcw i) := tame_orJac hB i
theorem tame_Mi (i) : SX.Tame Set.univ (B.Mi i) :=
  (((tame_Jcv hB i).transp.mtimes (tame_Jcv hB i)).scale (hB.dyn.tame Set.univ _ _)).add
    (((((tame_Jcw hB i).transp.mtimes (tame_R0 hB _)).mtimes (tame_inertia hB i)).mtimes (tame_R0 hB _).transp).mtimes
      (tame_Jcw hB i))
theorem tame_Macc (k) : SX.Tame Set.univ (B.Macc k) := by
  induction k with
  | zero => exact SX.Tame.zeros _ _
  | succ k ih => exact ih.add (tame_Mi hB k)
theorem tame_M : SX.Tame Set.univ B.M := tame_Macc hB _
theorem tame_Gacc (k) : SX.Tame Set.univ (B.Gacc k) := by
  induction k with
  | zero => exact SX.Tame.zeros _ _
  | succ k ih =>
    exact ih.add (((hB.g.tame Set.univ).transp.mtimes (tame_Jcv hB k)).scale (Expr.TameOn.sneg (hB.dyn.tame Set.univ _ _))).transp
theorem tame_G : SX.Tame Set.univ B.G := tame_Gacc hB _
theorem tame_C : SX.Tame Set.univ B.C := tame_stdCmatrix (tame_M hB) (tame_dq hB) (tame_dqSelect (tame_dq hB))
theorem tame_Mdot : SX.Tame Set.univ B.Mdot := (tame_M hB).jtimes (tame_dq hB) (SX.over_univ _)
theorem tame_Gdot : SX.Tame Set.univ B.Gdot := (tame_G hB).jtimes (tame_dq hB) (SX.over_univ _)
theorem tame_Cdot : SX.Tame Set.univ B.Cdot :=
  ((tame_C hB).jtimes (tame_dq hB) (SX.over_univ _)).add ((tame_C hB).jtimes (tame_ddq hB) (SX.over_univ _))

omit [Fl] in
theorem tame_ddqr : SX.Tame Set.univ B.ddqr := by rw [hB.ddqr]; exact SX.Tame.sym _ _
omit [Fl] in
theorem tame_dqr : SX.Tame Set.univ B.dqr := by rw [hB.dqr]; exact SX.Tame.sym _ _
omit [Fl] in
theorem tame_w : SX.Tame Set.univ B.w := by rw [hB.w]; exact SX.Tame.sym _ _
theorem tame_JeeDdot : SX.Tame Set.univ B.JeeDdot :=
  ((tame_JeeDot hB).jtimes (tame_dq hB) (SX.over_univ _)).add ((tame_JeeDot hB).jtimes (tame_ddq hB) (SX.over_univ _))
theorem tame_Jcm (i) : SX.Tame Set.univ (B.Jcm i) := (tame_Jcv hB i).vcat (tame_Jcw hB i)
theorem tame_Mddot : SX.Tame Set.univ B.Mddot :=
  ((tame_Mdot hB).jtimes (tame_dq hB) (SX.over_univ _)).add ((tame_Mdot hB).jtimes (tame_ddq hB) (SX.over_univ _))
theorem tame_Gddot : SX.Tame Set.univ B.Gddot :=
  ((tame_Gdot hB).jtimes (tame_dq hB) (SX.over_univ _)).add ((tame_Gdot hB).jtimes (tame_ddq hB) (SX.over_univ _))
theorem tame_Cddot : SX.Tame Set.univ B.Cddot :=
  (((tame_Cdot hB).jtimes (tame_dq hB) (SX.over_univ _)).add ((tame_Cdot hB).jtimes (tame_ddq hB) (SX.over_univ _))).add
    ((tame_Cdot hB).jtimes (tame_d3q hB) (SX.over_univ _))

omit [Fl] hB in
theorem tame_halfTerm {a x v : Expr} (ha : a.Tame Set.univ) (hv : v.Tame Set.univ) : (halfTerm a x v).Tame Set.univ :=
  ((Expr.TameOn.const _).smul (SX.tame_Dx (Set.subset_univ _) ha)).smul hv

theorem tame_Cstd : SX.Tame Set.univ B.Cstd := by
  have hM := tame_M hB
  have hd := tame_dq hB
  refine SX.Tame.sub (SX.Tame.add (fun h j => ?_) fun h j => ?_) (SX.Tame.transp fun h j => ?_)
  all_goals
    dsimp only
    split_ifs
    · exact tame_sumN fun k _ => tame_halfTerm (hM _ _) (hd _ _)
    · exact .const _

/-! ## Regressors -/

omit [Fl] hB in
theorem tame_matQ (l) : SX.Tame Set.univ (matQ l) := by
  unfold matQ
  split <;> exact tame_mat33 (.const _) (.const _) (.const _) (.const _) (.const _) (.const _) (.const _) (.const _) (.const _)
omit [Fl] hB in
theorem tame_matE (l) : SX.Tame Set.univ (matE l) := by
  unfold matE
  split <;> exact tame_mat33 (.const _) (.const _) (.const _) (.const _) (.const _) (.const _) (.const _) (.const _) (.const _)
omit [Fl] hB in
theorem tame_ofCols {n k : ℕ} {c : ℕ → SX} (h : ∀ l, SX.Tame Set.univ (c l)) : SX.Tame Set.univ (ofCols n k c) := by
  intro i j
  simp only [ofCols]
  split_ifs
  · exact h _ _ _
  · exact .const _
theorem tame_Yv (i) : SX.Tame Set.univ (B.Yv i) := (tame_J hB i).block _ _ _ _
theorem tame_Yw (i) : SX.Tame Set.univ (B.Yw i) := (tame_J hB i).block _ _ _ _
omit [Fl] in
theorem tame_cor {A : SX} (h : SX.Tame Set.univ A) : SX.Tame Set.univ (B.cor A) := tame_stdCmatrix h (tame_dq hB) (tame_dqSelect (tame_dq hB))
theorem tame_M0 (i) : SX.Tame Set.univ (B.M0 i) := (tame_Yv hB i).transp.mtimes (tame_Yv hB i)
theorem tame_M1 (i l) : SX.Tame Set.univ (B.M1 i l) :=
  (((((tame_Yw hB i).transp.mtimes (tame_R0 hB _)).mtimes (tame_matQ l)).mtimes (tame_R0 hB _).transp).mtimes (tame_Yv hB i)).sub
    (((((tame_Yv hB i).transp.mtimes (tame_R0 hB _)).mtimes (tame_matQ l)).mtimes (tame_R0 hB _).transp).mtimes (tame_Yw hB i))
theorem tame_M2 (i l) : SX.Tame Set.univ (B.M2 i l) :=
  ((((tame_Yw hB i).transp.mtimes (tame_R0 hB _)).mtimes (tame_matE l)).mtimes (tame_R0 hB _).transp).mtimes (tame_Yw hB i)
theorem tame_dX0 (i) : SX.Tame Set.univ (B.dX0 i) := (tame_M0 hB i).mtimes (tame_ddqr hB)
theorem tame_dX1 (i) : SX.Tame Set.univ (B.dX1 i) := tame_ofCols fun l => (tame_M1 hB i l).mtimes (tame_ddqr hB)
theorem tame_dX2 (i) : SX.Tame Set.univ (B.dX2 i) := tame_ofCols fun l => (tame_M2 hB i l).mtimes (tame_ddqr hB)
theorem tame_W0 (i) : SX.Tame Set.univ (B.W0 i) := ((tame_cor hB (tame_M0 hB i)).mtimes (tame_dqr hB)).neg
theorem tame_W1 (i) : SX.Tame Set.univ (B.W1 i) := tame_ofCols fun l => ((tame_cor hB (tame_M1 hB i l)).mtimes (tame_dqr hB)).neg
theorem tame_W2 (i) : SX.Tame Set.univ (B.W2 i) := tame_ofCols fun l => ((tame_cor hB (tame_M2 hB i l)).mtimes (tame_dqr hB)).neg
theorem tame_Z0 (i) : SX.Tame Set.univ (B.Z0 i) := ((tame_Yv hB i).transp.mtimes (hB.g.tame Set.univ)).neg
theorem tame_Z1 (i) : SX.Tame Set.univ (B.Z1 i) :=
  (((tame_R0 hB _).transp.mtimes (hB.g.tame Set.univ)).jacobian (SX.over_univ _)).transp.neg
omit [Fl] hB in
theorem tame_stack {f : ℕ → SX} (h : ∀ i, SX.Tame Set.univ (f i)) : SX.Tame Set.univ (B.stack f) := by
  intro i j
  simp only [stack]
  split_ifs
  · exact h _ _ _
  · exact .const _
theorem tame_Yr : SX.Tame Set.univ B.Yr := tame_stack fun i =>
  ((((tame_dX0 hB i).sub (tame_W0 hB i)).add (tame_Z0 hB i)).hcat (((tame_dX1 hB i).sub (tame_W1 hB i)).add (tame_Z1 hB i))).hcat
    ((tame_dX2 hB i).sub (tame_W2 hB i))
theorem tame_regM : SX.Tame Set.univ B.regM := tame_stack fun i => ((tame_dX0 hB i).hcat (tame_dX1 hB i)).hcat (tame_dX2 hB i)
theorem tame_regC : SX.Tame Set.univ B.regC := tame_stack fun i => ((tame_W0 hB i).neg.hcat (tame_W1 hB i).neg).hcat (tame_W2 hB i).neg
theorem tame_regG : SX.Tame Set.univ B.regG := tame_stack fun i => ((tame_Z0 hB i).hcat (tame_Z1 hB i)).hcat (SX.Tame.zeros _ _)
theorem tame_regJdq (a b c) : SX.Tame Set.univ (B.regJdq a b c) := ((tame_Jee hB).mtimes (tame_dq hB)).jacobian (SX.over_univ _)
theorem tame_regJTw (a b c) : SX.Tame Set.univ (B.regJTw a b c) := ((tame_Jee hB).transp.mtimes (tame_w hB)).jacobian (SX.over_univ _)

end Base

end

/-! ## Friction and elasticity -/

section

open Robot Spec

variable {c : Conf}

theorem over_kmod (k : Key) : SX.Over {v | v.name = k.sym} (kmod c k) := by
  unfold kmod
  split_ifs
  · exact fun i j v hv => (k.parSym.toParVec.fv i j hv).1
  · exact SX.Over.zeros _ _

theorem tame_kmod (S : Set Var) (k : Key) : SX.Tame S (kmod c k) := by
  unfold kmod
  split_ifs
  · exact k.parSym.toParVec.tame S
  · exact SX.Tame.zeros _ _

/-- The symbols of the parameters. -/
def parSyms : Set Var := {v | IsPar v}

theorem disjoint_kmod {k : Key} (hk : k.isVar = true) (i j : ℕ) : Disjoint ((kmod c k).e i j).fv parSyms := by
  refine Set.disjoint_left.2 fun v hv hp => ?_
  obtain ⟨k', h', e⟩ := hp
  have : v.name = k.sym := over_kmod k i j hv
  rw [this] at e
  rw [Key.sym_inj e, hk] at h'
  cases h'

theorem par_kmod {k : Key} (hk : k.isVar = false) : SX.Over parSyms (kmod c k) := fun i j v hv => ⟨k, hk, (over_kmod k i j hv : v.name = k.sym).symm⟩

theorem over_symbPar {S : Set Var} {p : SX} (h : SX.Over S p) (flags : List ℤ) : SX.Over S (SX.ofList (Base.symbPar p flags)) := by
  refine SX.Over.ofList fun e he => ?_
  unfold Base.symbPar at he
  obtain ⟨i, -, rfl⟩ := List.mem_map.1 he
  exact h _ _

theorem tame_fricLaw {S : Set Var} {v : Expr} {p : SX} (hv : v.Tame S) (hd : Disjoint v.fv S) (hp : SX.Tame S p) (i m : ℕ) : (fricLaw v p i m).Tame S := by
  refine tame_sumN fun ord _ => Expr.TameOn.smul ?_ (hp _ _)
  unfold fricTerm
  split_ifs
  · exact hv.pow _
  · exact (hv.sqrt hd).smul (hv.pow _)

theorem tame_oddLaw {S : Set Var} {v : Expr} {p : SX} (hv : v.Tame S) (hp : SX.Tame S p) (i m : ℕ) : (oddLaw v p i m).Tame S :=
  tame_sumN fun _ _ => (hv.pow _).smul (hp _ _)

theorem tame_diagPar {S : Set Var} {p : SX} (hp : SX.Tame S p) (m order ord : ℕ) : SX.Tame S (diagPar p m order ord) := by
  intro i j
  simp only [diagPar]
  split_ifs
  · exact hp _ _
  · exact .const _

theorem tame_dl (m : ℕ) : SX.Tame parSyms ((base c).dlFun m) := by
  intro i j
  simp only [Base.dlFun]
  split_ifs
  · exact tame_fricLaw (tame_kmod _ .dq _ _) (disjoint_kmod (k := .dq) rfl _ _) (tame_kmod _ .Dl) _ _
  · exact .const _
theorem tame_k (n m : ℕ) : SX.Tame parSyms ((base c).kFun n m) := by
  intro i j
  simp only [Base.kFun]
  split_ifs
  · exact tame_oddLaw ((tame_kmod _ .x _ _).ssub (tame_kmod _ .q _ _)) (tame_kmod _ .K) _ _
  · exact .const _
theorem tame_d (n m : ℕ) : SX.Tame parSyms ((base c).dFun n m) := by
  intro i j
  simp only [Base.dFun]
  split_ifs
  · refine tame_fricLaw ((tame_kmod _ .dx _ _).ssub (tame_kmod _ .dq _ _)) ?_ (tame_kmod _ .D) _ _
    exact Disjoint.mono_left (Expr.fv_ssub _ _) (Set.disjoint_union_left.2 ⟨disjoint_kmod (k := .dx) rfl _ _, disjoint_kmod (k := .dq) rfl _ _⟩)
  · exact .const _
theorem tame_dm (n m : ℕ) : SX.Tame parSyms ((base c).dmFun n m) := by
  intro i j
  simp only [Base.dmFun]
  split_ifs
  · exact tame_fricLaw (tame_kmod _ .dx _ _) (disjoint_kmod (k := .dx) rfl _ _) (tame_kmod _ .Dm) _ _
  · exact .const _
theorem tame_Mm (n : ℕ) : SX.Tame parSyms ((base c).MmFun n) := tame_diagPar (tame_kmod _ .Mm) _ _ _

/-- All functions of the library. -/
theorem Fn.tame [Fl] (hn : 0 < c.n) (ht : Typed c) {f : Fn} : ∃ S, SX.Tame S (f.expr (base c) c) := by
  have hB := base_wf hn ht
  cases f with
  | T i => exact ⟨_, Base.tame_Ti hB i⟩
  | T0 i =>
    refine ⟨Set.univ, ?_⟩
    unfold Fn.expr
    dsimp only
    split_ifs
    · exact Base.tame_T0ee hB
    · exact Base.tame_T0 hB i
  | T0ee => exact ⟨_, Base.tame_T0ee hB⟩
  | J i => exact ⟨_, Base.tame_J hB _⟩
  | Jee => exact ⟨_, Base.tame_Jee hB⟩
  | JeeDot => exact ⟨_, Base.tame_JeeDot hB⟩
  | JeeDdot => exact ⟨_, Base.tame_JeeDdot hB⟩
  | JeePinv => exact ⟨_, Base.tame_JeePinv hB⟩
  | Jcm i => exact ⟨_, Base.tame_Jcm hB _⟩
  | M => exact ⟨_, Base.tame_M hB⟩
  | C => exact ⟨_, Base.tame_C hB⟩
  | Cstd => exact ⟨_, Base.tame_Cstd hB⟩
  | G => exact ⟨_, Base.tame_G hB⟩
  | Mdot => exact ⟨_, Base.tame_Mdot hB⟩
  | Mddot => exact ⟨_, Base.tame_Mddot hB⟩
  | Cdot => exact ⟨_, Base.tame_Cdot hB⟩
  | Cddot => exact ⟨_, Base.tame_Cddot hB⟩
  | Gdot => exact ⟨_, Base.tame_Gdot hB⟩
  | Gddot => exact ⟨_, Base.tame_Gddot hB⟩
  | dl => exact ⟨_, tame_dl _⟩
  | Dl i => exact ⟨_, tame_diagPar (tame_kmod Set.univ .Dl) _ _ _⟩
  | k => exact ⟨_, tame_k _ _⟩
  | K i => exact ⟨_, tame_diagPar (tame_kmod Set.univ .K) _ _ _⟩
  | d => exact ⟨_, tame_d _ _⟩
  | D i => exact ⟨_, tame_diagPar (tame_kmod Set.univ .D) _ _ _⟩
  | dm => exact ⟨_, tame_dm _ _⟩
  | Dm i => exact ⟨_, tame_diagPar (tame_kmod Set.univ .Dm) _ _ _⟩
  | Mm => exact ⟨_, tame_Mm _⟩
  | Yr => exact ⟨_, Base.tame_Yr hB⟩
  | regM => exact ⟨_, Base.tame_regM hB⟩
  | regC => exact ⟨_, Base.tame_regC hB⟩
  | regG => exact ⟨_, Base.tame_regG hB⟩
  | regJdq => exact ⟨_, Base.tame_regJdq hB _ _ _⟩
  | regJTw => exact ⟨_, Base.tame_regJTw hB _ _ _⟩
  | regDl => exact ⟨_, (tame_dl _).jacobian (over_symbPar (par_kmod (k := .Dl) rfl) _)⟩
  | regK => exact ⟨_, (tame_k _ _).jacobian (over_symbPar (par_kmod (k := .K) rfl) _)⟩
  | regD => exact ⟨_, (tame_d _ _).jacobian (over_symbPar (par_kmod (k := .D) rfl) _)⟩
  | regDm => exact ⟨_, (tame_dm _ _).jacobian (over_symbPar (par_kmod (k := .Dm) rfl) _)⟩
  | regMm => exact ⟨_, ((tame_Mm _).mtimes (tame_kmod _ .ddx)).jacobian (over_symbPar (par_kmod (k := .Mm) rfl) _)⟩

end

end

end Thunder
