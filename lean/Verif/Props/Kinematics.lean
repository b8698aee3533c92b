import Verif.Lemmas.Time
import Verif.Props.Examples

/-!
# Properties C01–C07, C09: kinematics
-/

open scoped Classical
open Matrix

namespace Thunder

noncomputable section

variable [Fl] {B : Base}

/-! ## C01 -/

/-- C01, link transforms: `T_i` is `Trans_x(a) Rot_x(alpha) Trans_z(d) Rot_z(theta)` with `q_i` added to `theta` (revolute) or
`d` (prismatic). -/
theorem C01_link (hB : B.WF) (hE : B.ExactAngles) (ρ : Var → ℝ) {i : ℕ} (hi : i < B.n) :
    SX.val ρ (B.Ti (i + 1)) 4 4 = Spec.link (B.kind i) (B.rowV ρ i) (ρ ⟨"q", i⟩) := by
  rw [val_Ti_pairs]
  have ha : ang ρ (B.alphaE i) = Spec.cs (B.rowV ρ i 1) := ang_exact fun c hc => hE c (.inl ⟨i, hi, .inl hc⟩)
  have ht : ang ρ (B.thetaE i) = Spec.cs (Expr.eval ρ (B.thetaE i)) := by
    by_cases hP : isP (B.ty i)
    · rw [Base.thetaE, if_pos hP]
      exact ang_exact fun c hc => hE c (.inl ⟨i, hi, .inr ⟨hP, hc⟩⟩)
    · exact ang_of_notConst (Base.thetaE_notConst hB hi hP)
  rw [ha, ht]
  by_cases hP : isP (B.ty i)
  · simp [Spec.link, Base.kind, hP, Base.thetaE, Base.dE, Base.q_e hB hi, Base.rowV]
  · simp [Spec.link, Base.kind, hP, Base.thetaE, Base.dE, Base.q_e hB hi, Base.rowV]

/-- C01, chain: `T_0_i` is the world-to-L0 transform times the first `i` link transforms. -/
theorem C01_chain (hB : B.WF) (hE : B.ExactAngles) (ρ : Var → ℝ) {i : ℕ} (hi : i ≤ B.n) :
    SX.val ρ (B.T0 i) 4 4 = Spec.fk (Base.frameV ρ B.w2l) B.kind (B.rowV ρ) (fun i => ρ ⟨"q", i⟩) i := by
  induction i with
  | zero =>
    have h := fun k h1 h2 => ang_exact (ρ := ρ) (e := B.w2l.e k 0) fun c hc => hE c (.inr ⟨k, h1, h2, .inl hc⟩)
    change SX.val ρ (getTransform B.w2l) 4 4 = _
    rw [val_getTransform_pairs, h 3 (by omega) (by omega), h 4 (by omega) (by omega), h 5 (by omega) (by omega)]
    rfl
  | succ i ih =>
    change SX.val ρ (SX.mtimes (B.T0 i) (B.Ti (i + 1))) 4 4 = _
    rw [SX.val_mtimes ρ _ _ 4 4 4 (B.T0_cols i), ih (by omega), C01_link hB hE ρ (by omega)]
    rfl

/-- C01, end effector: `T_0_ee = T_0_{n+1}` is `T_0_n` times the Ln-to-EE transform. -/
theorem C01_ee (hB : B.WF) (hE : B.ExactAngles) (ρ : Var → ℝ) :
    SX.val ρ B.T0ee 4 4 =
      Spec.fk (Base.frameV ρ B.w2l) B.kind (B.rowV ρ) (fun i => ρ ⟨"q", i⟩) B.n * Base.frameV ρ B.ee := by
  have h := fun k h1 h2 => ang_exact (ρ := ρ) (e := B.ee.e k 0) fun c hc => hE c (.inr ⟨k, h1, h2, .inr hc⟩)
  rw [Base.T0ee, SX.val_mtimes ρ _ _ 4 4 4 (B.T0_cols _), C01_chain hB hE ρ le_rfl, val_getTransform_pairs,
    h 3 (by omega) (by omega), h 4 (by omega) (by omega), h 5 (by omega) (by omega)]
  rfl

/-- C01 without any hypothesis on the library functions: the link and frame transforms are the modified-DH / yaw-pitch-roll
products built from the (snapped) cosine/sine pairs of their angles. -/
theorem C01_pairs (ρ : Var → ℝ) (i : ℕ) :
    SX.val ρ (B.Ti (i + 1)) 4 4 =
      Spec.dh (Expr.eval ρ (B.dh.e (i * 4) 0)) (ang ρ (B.alphaE i)) (Expr.eval ρ (B.dE i)) (ang ρ (B.thetaE i)) ∧
    SX.val ρ (B.T0 0) 4 4 =
      Spec.frame (SX.vec ρ B.w2l 3) (ang ρ (B.w2l.e 3 0)) (ang ρ (B.w2l.e 4 0)) (ang ρ (B.w2l.e 5 0)) ∧
    SX.val ρ (B.T0 (i + 1)) 4 4 = SX.val ρ (B.T0 i) 4 4 * SX.val ρ (B.Ti (i + 1)) 4 4 ∧
    SX.val ρ B.T0ee 4 4 = SX.val ρ (B.T0 B.n) 4 4 *
      Spec.frame (SX.vec ρ B.ee 3) (ang ρ (B.ee.e 3 0)) (ang ρ (B.ee.e 4 0)) (ang ρ (B.ee.e 5 0)) :=
  ⟨val_Ti_pairs ρ i, val_getTransform_pairs ρ _, SX.val_mtimes ρ _ _ 4 4 4 (B.T0_cols i), by
    rw [Base.T0ee, SX.val_mtimes ρ _ _ 4 4 4 (B.T0_cols _), val_getTransform_pairs]⟩

example (ρ : Var → ℝ) : SX.val ρ (@Base.T0ee Ex.fl Ex.B2) 4 4 =
    Spec.fk (Base.frameV ρ Ex.B2.w2l) Ex.B2.kind (Ex.B2.rowV ρ) (fun i => ρ ⟨"q", i⟩) 3 * Base.frameV ρ Ex.B2.ee :=
  @C01_ee Ex.fl _ Ex.wf2 Ex.exact2 ρ

/-! ## C02 -/

/-- C02: every frame transform is a rigid motion. -/
theorem C02_rigid (hB : B.WF) (hU : B.UnitAngles) (ρ : Var → ℝ) :
    (∀ i < B.n, Spec.IsRigid (SX.val ρ (B.Ti (i + 1)) 4 4)) ∧
    (∀ i ≤ B.n, Spec.IsRigid (SX.val ρ (B.T0 i) 4 4)) ∧ Spec.IsRigid (SX.val ρ B.T0ee 4 4) := by
  refine ⟨fun i hi => isRigid_of ρ ?_ ((B.Ti_isHomOf i).isHom ρ), fun i hi => isRigid_of ρ (Base.isRot_R0 hB ρ hU hi)
    (Base.isHom_T0 ρ i), isRigid_of ρ (Base.isRot_T0ee ρ hB hU)
    (isHom_mtimes (Base.getTransform_isHomOf B.ee) (B.T0_cols _) ρ (Base.isHom_T0 ρ _))⟩
  rw [(B.Ti_isHomOf i).val_rot, Base.val_linkR]
  exact Base.isRot_linkRot hB ρ hU hi

example (ρ : Var → ℝ) : Spec.IsRigid (SX.val ρ (@Base.T0ee Ex.fl Ex.B) 4 4) := (@C02_rigid Ex.fl _ Ex.wf Ex.unit ρ).2.2

/-! ## C03 – C05 -/

/-- C03: the linear rows of `J_{i+1}` are the partial derivatives of the origin of `T_0_{i+1}`. -/
theorem C03_linear (hB : B.WF) (hU : B.UnitAngles) (ρ : Var → ℝ) {i : ℕ} (hi : i < B.n) (q : Fin B.n → ℝ) :
    Spec.IsLinearJacobian (fun q' => SX.val (setV "q" ρ q') (B.T0 (i + 1)) 4 4) q
      (SX.val (setV "q" ρ q) (B.J i) 6 B.n) := by
  intro j a
  have h := SX.hasDerivAt_val_update (name := "q") (fun S => Base.smooth_T0 (S := S) hB (i + 1)) ρ q j 4 4 a.castSucc 3
  have e := congrFun (Base.Jv_mulVec (setV "q" ρ q) _ hB hU (qdir_single j) hi) a
  rw [spv_single, Matrix.mulVec_single_one, Base.P0_eq, dvec_traB_apply] at e
  rw [lin_J]
  have e' : SX.val (setV "q" ρ q) (B.Jv i) 3 B.n a j = SX.dval (setV "q" ρ q) (Expr.single ⟨"q", j⟩) (B.T0 (i + 1)) 4 4
    a.castSucc 3 := e
  rw [e']
  exact h

example (ρ : Var → ℝ) (q : Fin 3 → ℝ) :
    Spec.IsLinearJacobian (fun q' => SX.val (setV "q" ρ q') (@Base.T0 Ex.fl Ex.B 2) 4 4) q
      (SX.val (setV "q" ρ q) (@Base.J Ex.fl Ex.B 1) 6 3) := @C03_linear Ex.fl _ Ex.wf Ex.unit ρ 1 (by decide) q

/-- C04: the angular rows of `J_{i+1}` are the angular velocity map of the frame `T_0_{i+1}`. -/
theorem C04_angular (hB : B.WF) (hU : B.UnitAngles) (ρ : Var → ℝ) {i : ℕ} (hi : i < B.n) (q : Fin B.n → ℝ) :
    Spec.IsAngularJacobian (fun q' => SX.val (setV "q" ρ q') (B.T0 (i + 1)) 4 4) q
      (SX.val (setV "q" ρ q) (B.J i) 6 B.n) := by
  intro j a b
  have h := SX.hasDerivAt_val_update (name := "q") (fun S => Base.smooth_T0 (S := S) hB (i + 1)) ρ q j 4 4 a.castSucc b.castSucc
  have e := congrFun (congrFun (Base.Jw_mulVec (setV "q" ρ q) _ hB hU (qdir_single j) hi) a) b
  rw [spv_single, Matrix.mulVec_single_one, Base.R0_eq, dval_rotB_apply] at e
  rw [ang_J]
  have er : Spec.rot (SX.val (setV "q" ρ q) (B.T0 (i + 1)) 4 4) = SX.val (setV "q" ρ q) (rotB (B.T0 (i + 1))) 3 3 := by
    ext a b; rw [val_rotB_apply]; rfl
  simp only [er]
  have e' : (hat (fun c => SX.val (setV "q" ρ q) (B.Jw i) 3 B.n c j) * SX.val (setV "q" ρ q) (rotB (B.T0 (i + 1))) 3 3) a b =
    SX.dval (setV "q" ρ q) (Expr.single ⟨"q", j⟩) (B.T0 (i + 1)) 4 4 a.castSucc b.castSucc := e
  rw [e']
  exact h

example (ρ : Var → ℝ) (q : Fin 3 → ℝ) :
    Spec.IsAngularJacobian (fun q' => SX.val (setV "q" ρ q') (@Base.T0 Ex.fl Ex.B 3) 4 4) q
      (SX.val (setV "q" ρ q) (@Base.J Ex.fl Ex.B 2) 6 3) := @C04_angular Ex.fl _ Ex.wf Ex.unit ρ 2 (by decide) q

/-- C05: `J_ee` (`= J_{n+1}`) is the Jacobian of the end-effector frame `T_0_ee`, tool offset included. -/
theorem C05_ee (hB : B.WF) (hU : B.UnitAngles) (ρ : Var → ℝ) (q : Fin B.n → ℝ) :
    Spec.IsLinearJacobian (fun q' => SX.val (setV "q" ρ q') B.T0ee 4 4) q (SX.val (setV "q" ρ q) B.Jee 6 B.n) ∧
    Spec.IsAngularJacobian (fun q' => SX.val (setV "q" ρ q') B.T0ee 4 4) q (SX.val (setV "q" ρ q) B.Jee 6 B.n) := by
  constructor
  · intro j a
    have h := SX.hasDerivAt_val_update (name := "q") (fun S => Base.smooth_T0ee (S := S) hB) ρ q j 4 4 a.castSucc 3
    have e := congrFun (Base.Jee_lin_mulVec (setV "q" ρ q) _ hB hU (qdir_single j)) a
    rw [spv_single, Matrix.mulVec_single_one, dvec_traB_apply] at e
    rw [Base.Jee, lin_J]
    have e' : SX.val (setV "q" ρ q) (B.Jv B.n) 3 B.n a j = SX.dval (setV "q" ρ q) (Expr.single ⟨"q", j⟩) B.T0ee 4 4
      a.castSucc 3 := e
    rw [e']
    exact h
  · intro j a b
    have h := SX.hasDerivAt_val_update (name := "q") (fun S => Base.smooth_T0ee (S := S) hB) ρ q j 4 4 a.castSucc b.castSucc
    have e := congrFun (congrFun (Base.Jee_ang_mulVec (setV "q" ρ q) _ hB hU (qdir_single j)) a) b
    rw [spv_single, Matrix.mulVec_single_one, dval_rotB_apply] at e
    rw [Base.Jee, ang_J]
    have er : Spec.rot (SX.val (setV "q" ρ q) B.T0ee 4 4) = SX.val (setV "q" ρ q) (rotB B.T0ee) 3 3 := by
      ext a b; rw [val_rotB_apply]; rfl
    simp only [er]
    have e' : (hat (fun c => SX.val (setV "q" ρ q) (B.Jw B.n) 3 B.n c j) * SX.val (setV "q" ρ q) (rotB B.T0ee) 3 3) a b =
      SX.dval (setV "q" ρ q) (Expr.single ⟨"q", j⟩) B.T0ee 4 4 a.castSucc b.castSucc := e
    rw [e']
    exact h

example (ρ : Var → ℝ) (q : Fin 3 → ℝ) :
    Spec.IsLinearJacobian (fun q' => SX.val (setV "q" ρ q') (@Base.T0ee Ex.fl Ex.B) 4 4) q
      (SX.val (setV "q" ρ q) (@Base.Jee Ex.fl Ex.B) 6 3) := (@C05_ee Ex.fl _ Ex.wf Ex.unit ρ q).1

/-! ## C06 -/

/-- C06: frames and Jacobians do not depend on later joints.  Column `j > i` of `J_{i+1}` and `J_cm_{i+1}` is zero, and `T_0_{i+1}`
takes the same value for joint vectors that agree on the joints `0..i`. -/
theorem C06_causal (hB : B.WF) (ρ : Var → ℝ) {i : ℕ} (hi : i < B.n) :
    (∀ (r : Fin 6) (j : Fin B.n), i < j → SX.val ρ (B.J i) 6 B.n r j = 0 ∧ SX.val ρ (B.Jcm i) 6 B.n r j = 0) ∧
    (∀ q q' : Fin B.n → ℝ, (∀ j : Fin B.n, (j : ℕ) ≤ i → q j = q' j) →
      SX.val (setV "q" ρ q) (B.T0 (i + 1)) 4 4 = SX.val (setV "q" ρ q') (B.T0 (i + 1)) 4 4) := by
  refine ⟨fun r j hj => ⟨?_, ?_⟩, fun q q' h => ?_⟩
  · have h1 : ¬ (j : ℕ) ≤ i := by omega
    have h2 : i ≠ B.n := by omega
    simp [Base.J, SX.vcat, Base.Jv, Base.Jw, h2, Base.imod, hi, Base.posJac, Base.orJac, h1]
  · have h1 : ¬ (j : ℕ) ≤ i := by omega
    simp [Base.Jcm, SX.vcat, Base.Jcv, Base.Jcw, Base.posJac, Base.orJac, h1]
  · ext a b
    refine Expr.eval_congr fun v hv => ?_
    have hv' := Base.over_T0_causal hB (i + 1) a b hv
    by_cases hq : v.name = "q"
    · obtain ⟨nm, ix⟩ := v
      simp only at hq
      subst hq
      have hix : ix < i + 1 := hv' rfl
      have hn : ix < B.n := by omega
      rw [setV_self' hn, setV_self' hn]
      exact h ⟨ix, hn⟩ (by simp only; omega)
    · rw [setV_ne hq, setV_ne hq]

example (ρ : Var → ℝ) (q q' : Fin 3 → ℝ) (h : q 0 = q' 0) :
    SX.val (setV "q" ρ q) (@Base.T0 Ex.fl Ex.B 1) 4 4 = SX.val (setV "q" ρ q') (@Base.T0 Ex.fl Ex.B 1) 4 4 :=
  (@C06_causal Ex.fl _ Ex.wf ρ 0 (by decide)).2 q q' (by
    intro j hj
    have : j = (0 : Fin 3) := Fin.ext (by simpa using hj)
    rw [this]; exact h)

/-! ## C07 -/

/-- C07: `J_ee_dot` is the time derivative of `J_ee` along every trajectory. -/
theorem C07_dot (hB : B.WF) (ρ : Var → ℝ) {q : ℝ → Fin B.n → ℝ} {v : Fin B.n → ℝ} {t : ℝ}
    (hq : ∀ i, HasDerivAt (fun s => q s i) (v i) t) (a : Fin 6) (b : Fin B.n) :
    HasDerivAt (fun s => SX.val (setV "q" ρ (q s)) B.Jee 6 B.n a b)
      (SX.val (setV "q" (setV "dq" ρ v) (q t)) B.JeeDot 6 B.n a b) t :=
  Base.hasDerivAt_jtimes₁ hB (fun _ => Base.smooth_Jee hB) (Base.over_Jee_q hB) ρ hq 6 B.n a b

example (ρ : Var → ℝ) (t : ℝ) (a : Fin 6) (b : Fin 3) :
    HasDerivAt (fun s : ℝ => SX.val (setV "q" ρ (fun i : Fin 3 => s ^ (i + 1 : ℕ))) (@Base.Jee Ex.fl Ex.B) 6 3 a b)
      (SX.val (setV "q" (setV "dq" ρ (fun i : Fin 3 => ((i + 1 : ℕ) : ℝ) * t ^ (i : ℕ))) (fun i : Fin 3 => t ^ (i + 1 : ℕ)))
        (@Base.JeeDot Ex.fl Ex.B) 6 3 a b) t :=
  @C07_dot Ex.fl _ Ex.wf ρ (fun s i => s ^ (i + 1 : ℕ)) _ t (fun i => hasDerivAt_pow (i + 1 : ℕ) t) a b

/-- C07: `J_ee_ddot` is the time derivative of `J_ee_dot`, hence the second derivative of `J_ee`, along every twice
differentiable trajectory. -/
theorem C07_ddot (hB : B.WF) (ρ : Var → ℝ) {q dq : ℝ → Fin B.n → ℝ} {w : Fin B.n → ℝ} {t : ℝ}
    (hq : ∀ s i, HasDerivAt (fun s => q s i) (dq s i) s) (hdq : ∀ i, HasDerivAt (fun s => dq s i) (w i) t)
    (a : Fin 6) (b : Fin B.n) :
    HasDerivAt (deriv fun s => SX.val (setV "q" ρ (q s)) B.Jee 6 B.n a b)
      (SX.val (setV "q" (setV "dq" (setV "ddq" ρ w) (dq t)) (q t)) B.JeeDdot 6 B.n a b) t := by
  have h1 : (deriv fun s => SX.val (setV "q" ρ (q s)) B.Jee 6 B.n a b) =
      fun s => SX.val (setV "q" (setV "dq" ρ (dq s)) (q s)) B.JeeDot 6 B.n a b := by
    funext s
    exact (C07_dot hB ρ (hq s) a b).deriv
  rw [h1]
  exact Base.hasDerivAt_jtimes₂ hB (fun _ => Base.smooth_JeeDot hB) (Base.over_JeeDot_q hB) ρ (hq t) hdq 6 B.n a b

example (ρ : Var → ℝ) (t : ℝ) (a : Fin 6) (b : Fin 3) :
    HasDerivAt (deriv fun s : ℝ => SX.val (setV "q" ρ (fun i : Fin 3 => s ^ (i + 1 : ℕ))) (@Base.Jee Ex.fl Ex.B) 6 3 a b)
      (SX.val (setV "q" (setV "dq" (setV "ddq" ρ (fun i : Fin 3 => ((i + 1 : ℕ) : ℝ) * ((i : ℕ) * t ^ (i - 1 : ℕ))))
        (fun i : Fin 3 => ((i + 1 : ℕ) : ℝ) * t ^ (i : ℕ))) (fun i : Fin 3 => t ^ (i + 1 : ℕ)))
        (@Base.JeeDdot Ex.fl Ex.B) 6 3 a b) t :=
  @C07_ddot Ex.fl _ Ex.wf ρ (fun s i => s ^ (i + 1 : ℕ)) (fun s i => ((i + 1 : ℕ) : ℝ) * s ^ (i : ℕ)) _ t
    (fun s i => hasDerivAt_pow (i + 1 : ℕ) s) (fun i => (hasDerivAt_pow (i : ℕ) t).const_mul _) a b

/-! ## C09 -/

/-- C09: for a numeric angle, every entry of `R_x`, `R_y`, `R_z` differs from the matrix of the untruncated library results by
less than 1e-15. -/
theorem C09_numeric (ρ : Var → ℝ) (c : ℝ) (i j : Fin 3) :
    |SX.val ρ (rotX (.const c)) 3 3 i j - !![1, 0, 0; 0, Fl.cosF c, -Fl.sinF c; 0, Fl.sinF c, Fl.cosF c] i j| < 1e-15 ∧
    |SX.val ρ (rotY (.const c)) 3 3 i j - !![Fl.cosF c, 0, Fl.sinF c; 0, 1, 0; -Fl.sinF c, 0, Fl.cosF c] i j| < 1e-15 ∧
    |SX.val ρ (rotZ (.const c)) 3 3 i j - !![Fl.cosF c, -Fl.sinF c, 0; Fl.sinF c, Fl.cosF c, 0; 0, 0, 1] i j| < 1e-15 := by
  have key : ∀ x : ℝ, |Spec.snap x - x| < 1e-15 := by
    intro x
    unfold Spec.snap
    split_ifs with h
    · rwa [zero_sub, abs_neg]
    · simp; norm_num
  have key' : ∀ x : ℝ, |-Spec.snap x - -x| < 1e-15 := by
    intro x
    rw [show -Spec.snap x - -x = -(Spec.snap x - x) by ring, abs_neg]
    exact key x
  have h0 : |(0 : ℝ)| < 1e-15 := by norm_num
  have k1 := key (Fl.cosF c)
  have k2 := key (Fl.sinF c)
  have k3 := key' (Fl.sinF c)
  rw [val_rotX, val_rotY, val_rotZ]
  refine ⟨?_, ?_, ?_⟩ <;> fin_cases i <;> fin_cases j <;>
    first
      | exact k1
      | exact k2
      | exact k3
      | (simp [rX, rY, rZ, ang]; norm_num)

/-- C09: the truncation acts (an angle whose library cosine is tiny is mapped to an exact 0). -/
example (ρ : Var → ℝ) : SX.val ρ (@rotX Ex.fl (.const Ex.c90)) 3 3 = !![1, 0, 0; 0, 0, -1; 0, 1, 0] := by
  have h : @ang Ex.fl ρ (.const Ex.c90) = (0, 1) := Prod.ext Ex.snap_cos_c90 Ex.snap_sin_c90
  rw [@val_rotX Ex.fl, h, rX]

/-- C09: symbolic angles are never truncated: the entries are the exact cosine and sine of the angle's value. -/
theorem C09_symbolic (ρ : Var → ℝ) (e : Expr) (he : ∀ c, e ≠ .const c) :
    SX.val ρ (rotX e) 3 3 = !![1, 0, 0; 0, Real.cos (e.eval ρ), -Real.sin (e.eval ρ); 0, Real.sin (e.eval ρ), Real.cos (e.eval ρ)] ∧
    SX.val ρ (rotY e) 3 3 = !![Real.cos (e.eval ρ), 0, Real.sin (e.eval ρ); 0, 1, 0; -Real.sin (e.eval ρ), 0, Real.cos (e.eval ρ)] ∧
    SX.val ρ (rotZ e) 3 3 = !![Real.cos (e.eval ρ), -Real.sin (e.eval ρ), 0; Real.sin (e.eval ρ), Real.cos (e.eval ρ), 0; 0, 0, 1] := by
  rw [val_rotX, val_rotY, val_rotZ, ang_of_notConst he]
  exact ⟨rfl, rfl, rfl⟩

example (ρ : Var → ℝ) : SX.val ρ (@rotZ Ex.fl (.var ⟨"q", 0⟩)) 3 3 =
    !![Real.cos (ρ ⟨"q", 0⟩), -Real.sin (ρ ⟨"q", 0⟩), 0; Real.sin (ρ ⟨"q", 0⟩), Real.cos (ρ ⟨"q", 0⟩), 0; 0, 0, 1] :=
  (@C09_symbolic Ex.fl ρ (.var ⟨"q", 0⟩) (by intro c; simp)).2.2

end

end Thunder
