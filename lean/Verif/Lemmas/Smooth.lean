import Verif.Lemmas.Chain
import Verif.Model.Regressors

/-!
# Smoothness of the kinematic and dynamic expressions

Every expression is smooth in all its symbols, so that symbolic derivatives are analytic derivatives.
-/

open scoped Classical

namespace Thunder

noncomputable section

variable {S : Set Var}

theorem smooth_mat33 {a b c d e f g h i : Expr} (ha : a.Smooth S) (hb : b.Smooth S) (hc : c.Smooth S) (hd : d.Smooth S)
    (he : e.Smooth S) (hf : f.Smooth S) (hg : g.Smooth S) (hh : h.Smooth S) (hi : i.Smooth S) :
    SX.Smooth S (mat33 a b c d e f g h i) := by
  intro r s
  simp only [mat33]
  split <;> first | assumption | trivial

theorem smooth_col3 {a b c : Expr} (ha : a.Smooth S) (hb : b.Smooth S) (hc : c.Smooth S) : SX.Smooth S (col3 a b c) := by
  intro r s
  simp only [col3]
  split <;> first | assumption | trivial

theorem smooth_hatX {v : SX} (h : SX.Smooth S v) : SX.Smooth S (hatX v) := by
  have := smooth_mat33 (S := S) (a := .const 0) (b := Expr.sneg (v.e 2 0)) (c := v.e 1 0) (d := v.e 2 0) (e := .const 0)
    (f := Expr.sneg (v.e 0 0)) (g := Expr.sneg (v.e 1 0)) (h := v.e 0 0) (i := .const 0)
    trivial (h _ _).sneg (h _ _) (h _ _) trivial (h _ _).sneg (h _ _).sneg (h _ _) trivial
  exact this

theorem smooth_homog {R p : SX} (hR : SX.Smooth S R) (hp : SX.Smooth S p) : SX.Smooth S (homog R p) := by
  intro i j
  simp only [homog]
  split_ifs
  · exact hR _ _
  · exact hp _ _
  · trivial
  · trivial

theorem smooth_dqSelect {dq : SX} (h : SX.Smooth S dq) : SX.Smooth S (dqSelect dq) := by
  intro i j
  simp only [dqSelect]
  split_ifs
  · exact (SX.Smooth.eye _ _ _).smul (h _ _)
  · trivial

theorem smooth_reshapeSq {A : SX} (h : SX.Smooth S A) (n : ℕ) : SX.Smooth S (reshapeSq A n) := by
  intro i j
  simp only [reshapeSq]
  split_ifs
  · exact h _ _
  · trivial

theorem smooth_stdCmatrix {M q dq sel : SX} (hM : SX.Smooth S M) (hdq : SX.Smooth S dq)
    (hs : SX.Smooth S sel) : SX.Smooth S (stdCmatrix M q dq sel) :=
  SX.Smooth.divc (((smooth_reshapeSq ((hM.jacobian q).mtimes hdq) _).add (hs.mtimes (hM.jacobian q))).sub
    (hs.mtimes (hM.jacobian q)).transp) 2

variable [Fl]

theorem smooth_zis_ccos {t : Expr} (h : t.Smooth S) : (zis (ccos t)).Smooth S := by
  cases t <;> first | exact h | (simp only [ccos, zis]; split_ifs <;> trivial)
theorem smooth_zis_csin {t : Expr} (h : t.Smooth S) : (zis (csin t)).Smooth S := by
  cases t <;> first | exact h | (simp only [csin, zis]; split_ifs <;> trivial)
theorem smooth_zis_cneg_csin {t : Expr} (h : t.Smooth S) : (zis (cneg (csin t))).Smooth S := by
  cases t <;> first | exact h | (simp only [csin, cneg, zis]; split_ifs <;> trivial)

theorem smooth_rotX {t : Expr} (h : t.Smooth S) : SX.Smooth S (rotX t) := by
  have h1 := smooth_zis_ccos h
  have h2 := smooth_zis_csin h
  have h3 := smooth_zis_cneg_csin h
  apply smooth_mat33 <;> first | assumption | trivial
theorem smooth_rotY {t : Expr} (h : t.Smooth S) : SX.Smooth S (rotY t) := by
  have h1 := smooth_zis_ccos h
  have h2 := smooth_zis_csin h
  have h3 := smooth_zis_cneg_csin h
  apply smooth_mat33 <;> first | assumption | trivial
theorem smooth_rotZ {t : Expr} (h : t.Smooth S) : SX.Smooth S (rotZ t) := by
  have h1 := smooth_zis_ccos h
  have h2 := smooth_zis_csin h
  have h3 := smooth_zis_cneg_csin h
  apply smooth_mat33 <;> first | assumption | trivial

theorem smooth_getTransform {F : SX} (h : SX.Smooth S F) : SX.Smooth S (getTransform F) :=
  smooth_homog (((smooth_rotZ (h _ _)).mtimes (smooth_rotY (h _ _))).mtimes (smooth_rotX (h _ _))) (h.block _ _ _ _)

theorem smooth_dhTemplate {row : SX} {q : Expr} {ty : String} (h : SX.Smooth S row) (hq : q.Smooth S) :
    SX.Smooth S (dhTemplate row q ty) := by
  refine smooth_homog ((smooth_rotX (h _ _)).mtimes (smooth_rotZ ?_))
    (((smooth_rotX (h _ _)).mtimes (smooth_col3 (a := .const 0) (b := .const 0) trivial trivial ?_)).add
      (smooth_col3 (b := .const 0) (c := .const 0) (h _ _) trivial trivial))
  · split_ifs
    · exact h _ _
    · exact (h _ _).sadd hq
  · split_ifs
    · exact (h _ _).sadd hq
    · exact h _ _

namespace Base

variable {B : Base} (hB : B.WF)
include hB

omit [Fl] in
theorem smooth_q : SX.Smooth S B.q := by rw [hB.q]; exact SX.Smooth.sym _ _
omit [Fl] in
theorem smooth_dq : SX.Smooth S B.dq := by rw [hB.dq]; exact SX.Smooth.sym _ _
omit [Fl] in
theorem smooth_ddq : SX.Smooth S B.ddq := by rw [hB.ddq]; exact SX.Smooth.sym _ _
omit [Fl] in
theorem smooth_d3q : SX.Smooth S B.d3q := by rw [hB.d3q]; exact SX.Smooth.sym _ _

theorem smooth_Ti (i) : SX.Smooth S (B.Ti i) := by
  cases i with
  | zero => exact smooth_getTransform (hB.w2l.smooth S)
  | succ i => exact smooth_dhTemplate ((hB.dh.smooth S).block _ _ _ _) (smooth_q hB _ _)

theorem smooth_T0 (i) : SX.Smooth S (B.T0 i) := by
  induction i with
  | zero => exact smooth_Ti hB 0
  | succ i ih => exact ih.mtimes (smooth_Ti hB _)

theorem smooth_T0ee : SX.Smooth S B.T0ee := (smooth_T0 hB _).mtimes (smooth_getTransform (hB.ee.smooth S))

theorem smooth_R0 (i) : SX.Smooth S (B.R0 i) := (smooth_T0 hB i).block _ _ _ _
theorem smooth_P0 (i) : SX.Smooth S (B.P0 i) := (smooth_T0 hB i).block _ _ _ _
theorem smooth_K0 (i) : SX.Smooth S (B.K0 i) := (smooth_T0 hB i).block _ _ _ _

theorem smooth_posCol {O : SX} (hO : SX.Smooth S O) (j) : SX.Smooth S (B.posCol O j) := by
  unfold posCol
  split_ifs
  · exact smooth_K0 hB _
  · exact (smooth_hatX (smooth_K0 hB _)).mtimes (hO.sub (smooth_P0 hB _))

theorem smooth_orCol (j) : SX.Smooth S (B.orCol j) := by
  unfold orCol
  split_ifs
  · exact SX.Smooth.zeros _ _
  · exact smooth_K0 hB _

theorem smooth_posJac {O : SX} (hO : SX.Smooth S O) (im) : SX.Smooth S (B.posJac O im) := by
  intro a j
  simp only [posJac]
  split_ifs
  · exact smooth_posCol hB hO _ _ _
  · trivial

theorem smooth_orJac (im) : SX.Smooth S (B.orJac im) := by
  intro a j
  simp only [orJac]
  split_ifs
  · exact smooth_orCol hB _ _ _
  · trivial

theorem smooth_Jv (i) : SX.Smooth S (B.Jv i) := by
  unfold Jv
  simp only
  split_ifs
  · exact (smooth_posJac hB (smooth_P0 hB _) _).sub ((((smooth_R0 hB _).mtimes
      (smooth_hatX ((smooth_getTransform (hB.ee.smooth S)).block _ _ _ _))).mtimes (smooth_R0 hB _).transp).mtimes
      (smooth_orJac hB _))
  · exact smooth_posJac hB (smooth_P0 hB _) _

theorem smooth_J (i) : SX.Smooth S (B.J i) := (smooth_Jv hB i).vcat (smooth_orJac hB _)
theorem smooth_Jee : SX.Smooth S B.Jee := smooth_J hB _
theorem smooth_JeeDot : SX.Smooth S B.JeeDot := (smooth_Jee hB).jtimes (smooth_dq hB) _

omit [Fl] in
theorem smooth_com (i) : SX.Smooth S (B.com i) :=
  smooth_col3 (hB.dyn.smooth S _ _) (hB.dyn.smooth S _ _) (hB.dyn.smooth S _ _)
omit [Fl] in
theorem smooth_inertia (i) : SX.Smooth S (B.inertia i) := by
  have h := hB.dyn.smooth S
  exact smooth_mat33 (h _ _) (h _ _) (h _ _) (h _ _) (h _ _) (h _ _) (h _ _) (h _ _) (h _ _)
theorem smooth_Ocm (i) : SX.Smooth S (B.Ocm i) :=
  (smooth_P0 hB _).add ((smooth_R0 hB _).mtimes (smooth_com hB i))
theorem smooth_Jcv (i) : SX.Smooth S (B.Jcv i) := smooth_posJac hB (smooth_Ocm hB i) i
theorem smooth_Jcw (i) : SX.Smooth S (B.Jcw i) := smooth_orJac hB i
theorem smooth_Mi (i) : SX.Smooth S (B.Mi i) :=
  (((smooth_Jcv hB i).transp.mtimes (smooth_Jcv hB i)).scale (hB.dyn.smooth S _ _)).add
    (((((smooth_Jcw hB i).transp.mtimes (smooth_R0 hB _)).mtimes (smooth_inertia hB i)).mtimes (smooth_R0 hB _).transp).mtimes
      (smooth_Jcw hB i))
theorem smooth_Macc (k) : SX.Smooth S (B.Macc k) := by
  induction k with
  | zero => exact SX.Smooth.zeros _ _
  | succ k ih => exact ih.add (smooth_Mi hB k)
theorem smooth_M : SX.Smooth S B.M := smooth_Macc hB _
theorem smooth_Gacc (k) : SX.Smooth S (B.Gacc k) := by
  induction k with
  | zero => exact SX.Smooth.zeros _ _
  | succ k ih =>
    exact ih.add (((hB.g.smooth S).transp.mtimes (smooth_Jcv hB k)).scale (Expr.Smooth.sneg (hB.dyn.smooth S _ _))).transp
theorem smooth_G : SX.Smooth S B.G := smooth_Gacc hB _
theorem smooth_C : SX.Smooth S B.C := smooth_stdCmatrix (smooth_M hB) (smooth_dq hB) (smooth_dqSelect (smooth_dq hB))
theorem smooth_Mdot : SX.Smooth S B.Mdot := (smooth_M hB).jtimes (smooth_dq hB) _
theorem smooth_Gdot : SX.Smooth S B.Gdot := (smooth_G hB).jtimes (smooth_dq hB) _
theorem smooth_Cdot : SX.Smooth S B.Cdot :=
  ((smooth_C hB).jtimes (smooth_dq hB) _).add ((smooth_C hB).jtimes (smooth_ddq hB) _)

end Base

end

end Thunder
