import Verif.Lemmas.Dynamics

/-!
# Change of the base placement
-/

set_option linter.unusedSectionVars false

open scoped Classical
open Matrix

namespace Thunder

noncomputable section

variable [Fl]

theorem ang_congr {ρ σ : Var → ℝ} {e : Expr} (h : ∀ v ∈ Expr.fv e, ρ v = σ v) : ang ρ e = ang σ e := by
  by_cases hc : NotConst e
  · rw [ang_of_notConst hc, ang_of_notConst hc, Expr.eval_congr h]
  · simp only [NotConst, not_forall, not_not] at hc
    obtain ⟨c, rfl⟩ := hc
    rfl

namespace Base

/-- `B'` is the robot `B` mounted elsewhere: only `world2L0` and `gravity` may differ. -/
structure Remount (B B' : Base) : Prop where
  n : B'.n = B.n
  types : B'.types = B.types
  q : B'.q = B.q
  dq : B'.dq = B.dq
  dh : B'.dh = B.dh
  dyn : B'.dyn = B.dyn

/-- The rotation of the base frame is a proper rotation (numeric angles only). -/
def BaseUnit (B : Base) : Prop := ∀ k, 3 ≤ k → k < 6 → ∀ c, B.w2l.e k 0 = .const c → UnitAngle c

/-- Environments that agree except on `world2L0` and `gravity`. -/
def SameRobot (ρ σ : Var → ℝ) : Prop := ∀ v : Var, v.name ≠ "world2L0" → v.name ≠ "gravity" → ρ v = σ v

theorem isRot_base {B : Base} (h : B.BaseUnit) (ρ : Var → ℝ) : IsRot (B.rotV ρ 0) :=
  isRot_getTransform ρ h

theorem _root_.Thunder.IsRot.transpose {R : Matrix (Fin 3) (Fin 3) ℝ} (h : IsRot R) : IsRot Rᵀ where
  orth := by rw [Matrix.transpose_transpose]; exact h.orth'
  det := by rw [Matrix.det_transpose]; exact h.det

theorem _root_.Thunder.IsRot.hat_mulVec {R : Matrix (Fin 3) (Fin 3) ℝ} (h : IsRot R) (v w : Fin 3 → ℝ) :
    hat (R *ᵥ v) *ᵥ (R *ᵥ w) = R *ᵥ (hat v *ᵥ w) := by
  rw [Matrix.mulVec_mulVec, ← h.mul_hat, ← Matrix.mulVec_mulVec]

variable {B B' : Base} (hB : B.WF) (hr : Remount B B') {ρ σ : Var → ℝ} (hs : SameRobot ρ σ) (hu : B.BaseUnit)
  (hu' : B'.BaseUnit)

/-- Rotation between the two base frames. -/
def remRot (B B' : Base) (ρ σ : Var → ℝ) : Matrix (Fin 3) (Fin 3) ℝ := B'.rotV σ 0 * (B.rotV ρ 0)ᵀ

include hu hu' in
theorem isRot_remRot : IsRot (remRot B B' ρ σ) := (isRot_base hu' σ).mul (isRot_base hu ρ).transpose

include hB hr hs

theorem rem_ty (i : ℕ) : B'.ty i = B.ty i := by rw [ty, ty, hr.types]

theorem rem_fv {name : String} {k : ℕ} {A : SX} (h : ParVec name k A) (h1 : name ≠ "world2L0") (h2 : name ≠ "gravity") (i j : ℕ) :
    ∀ v ∈ Expr.fv (A.e i j), ρ v = σ v := fun v hv => by
  have := (h.over i j hv).1
  exact hs v (by rw [this]; exact h1) (by rw [this]; exact h2)

theorem rem_q (i : ℕ) : ∀ v ∈ Expr.fv (B.q.e i 0), ρ v = σ v := by
  intro v hv
  rw [hB.q] at hv
  simp only [SX.sym] at hv
  split_ifs at hv
  · simp at hv; subst hv; exact hs _ (by simp) (by simp)
  · simp at hv

theorem rem_sadd {a b : Expr} (ha : ∀ v ∈ Expr.fv a, ρ v = σ v) (hb : ∀ v ∈ Expr.fv b, ρ v = σ v) :
    ∀ v ∈ Expr.fv (Expr.sadd a b), ρ v = σ v := fun v hv => by
  rcases Expr.fv_sadd a b hv with h | h
  · exact ha v h
  · exact hb v h

theorem rem_linkRot (i : ℕ) : B'.linkRot σ i = B.linkRot ρ i := by
  have h1 : B'.alphaE i = B.alphaE i := by rw [alphaE, alphaE, hr.dh]
  have h2 : B'.thetaE i = B.thetaE i := by rw [thetaE, thetaE, hr.dh, rem_ty hB hr hs, hr.q]
  have d := fun i j => rem_fv hB hr hs hB.dh (by decide) (by decide) i j
  rw [linkRot, linkRot, h1, h2]
  congr 2
  · exact (ang_congr (d _ _)).symm
  · refine (ang_congr ?_).symm
    rw [thetaE]
    split_ifs
    · exact d _ _
    · exact rem_sadd hB hr hs (d _ _) (rem_q hB hr hs i)

theorem rem_linkTra (i : ℕ) : B'.linkTra σ i = B.linkTra ρ i := by
  have h1 : B'.alphaE i = B.alphaE i := by rw [alphaE, alphaE, hr.dh]
  have h2 : B'.dE i = B.dE i := by rw [dE, dE, hr.dh, rem_ty hB hr hs, hr.q]
  have d := fun i j => rem_fv hB hr hs hB.dh (by decide) (by decide) i j
  have e1 : ang σ (B.alphaE i) = ang ρ (B.alphaE i) := (ang_congr (d _ _)).symm
  have e2 : Expr.eval σ (B.dE i) = Expr.eval ρ (B.dE i) := by
    refine (Expr.eval_congr ?_).symm
    rw [dE]
    split_ifs
    · exact rem_sadd hB hr hs (d _ _) (rem_q hB hr hs i)
    · exact d _ _
  rw [linkTra, linkTra, h1, h2, hr.dh, e1, e2, (Expr.eval_congr (d (i * 4) 0))]

theorem rem_dyn (k : ℕ) : Expr.eval σ (B'.dyn.e k 0) = Expr.eval ρ (B.dyn.e k 0) := by
  rw [hr.dyn]
  exact (Expr.eval_congr (rem_fv hB hr hs hB.dyn (by decide) (by decide) k 0)).symm

include hu hu'

theorem rem_rot (i : ℕ) : B'.rotV σ i = remRot B B' ρ σ * B.rotV ρ i := by
  induction i with
  | zero => rw [remRot, Matrix.mul_assoc, (isRot_base hu ρ).orth, Matrix.mul_one]
  | succ i ih =>
    have h1 : B'.rotV σ (i + 1) = B'.rotV σ i * B'.linkRot σ i := val_R0_succ σ i
    have h2 : B.rotV ρ (i + 1) = B.rotV ρ i * B.linkRot ρ i := val_R0_succ ρ i
    rw [h1, h2, ih, rem_linkRot hB hr hs, Matrix.mul_assoc]

theorem rem_pos (i : ℕ) : B'.posV σ i - B'.posV σ 0 = remRot B B' ρ σ *ᵥ (B.posV ρ i - B.posV ρ 0) := by
  induction i with
  | zero => simp
  | succ i ih =>
    have h1 : B'.posV σ (i + 1) = B'.rotV σ i *ᵥ B'.linkTra σ i + B'.posV σ i := vec_P0_succ σ i
    have h2 : B.posV ρ (i + 1) = B.rotV ρ i *ᵥ B.linkTra ρ i + B.posV ρ i := vec_P0_succ ρ i
    rw [h1, h2, add_sub_assoc, ih, add_sub_assoc, Matrix.mulVec_add, rem_rot hB hr hs hu hu', rem_linkTra hB hr hs,
      Matrix.mulVec_mulVec]

theorem rem_axis (i : ℕ) : B'.axis σ i = remRot B B' ρ σ *ᵥ B.axis ρ i := by
  have h := rem_rot hB hr hs hu hu' i
  rw [axis, axis, Matrix.mulVec_mulVec]
  exact congrArg (· *ᵥ e3) h

theorem rem_diff (i j : ℕ) :
    SX.vec σ (B'.Ocm i) 3 - B'.posV σ j = remRot B B' ρ σ *ᵥ (SX.vec ρ (B.Ocm i) 3 - B.posV ρ j) := by
  have hc : B'.comV σ i = B.comV ρ i := by
    ext a; fin_cases a <;> exact rem_dyn hB hr hs _
  have h1 := rem_pos hB hr hs hu hu' (i + 1)
  have h2 := rem_pos hB hr hs hu hu' j
  have e1 : SX.vec σ (B'.Ocm i) 3 - B'.posV σ j =
      (B'.posV σ (i + 1) - B'.posV σ 0) - (B'.posV σ j - B'.posV σ 0) + B'.rotV σ (i + 1) *ᵥ B'.comV σ i := by
    rw [vec_Ocm]; abel
  have e2 : SX.vec ρ (B.Ocm i) 3 - B.posV ρ j =
      (B.posV ρ (i + 1) - B.posV ρ 0) - (B.posV ρ j - B.posV ρ 0) + B.rotV ρ (i + 1) *ᵥ B.comV ρ i := by
    rw [vec_Ocm]; abel
  rw [e1, e2, h1, h2, hc, rem_rot hB hr hs hu hu', Matrix.mulVec_add,
    Matrix.mulVec_sub (B.remRot B' ρ σ) (B.posV ρ (i + 1) - B.posV ρ 0), Matrix.mulVec_mulVec]

theorem rem_jv_entry (i : ℕ) (a : Fin 3) (j : ℕ) (hj : j < B.n) (hj' : j < B'.n) :
    B'.jv σ i a ⟨j, hj'⟩ = (remRot B B' ρ σ * B.jv ρ i) a ⟨j, hj⟩ := by
  have hS := isRot_remRot (ρ := ρ) (σ := σ) hu hu'
  have hcol : SX.vec σ (B'.posCol (B'.Ocm i) j) 3 = remRot B B' ρ σ *ᵥ SX.vec ρ (B.posCol (B.Ocm i) j) 3 := by
    have hp : B'.pri j = B.pri j := by rw [pri, pri, rem_ty hB hr hs]
    have hrv : B'.rev j = B.rev j := by rw [rev, rev, rem_ty hB hr hs]
    have hd := rem_diff hB hr hs hu hu' i (j + 1)
    simp only [posV] at hd
    rw [vec_posCol, vec_posCol, hp, hrv, rem_axis hB hr hs hu hu', hd, hS.hat_mulVec, Matrix.mulVec_add, Matrix.mulVec_smul,
      Matrix.mulVec_smul]
  have h1 := val_posJac (B := B') σ (B'.Ocm i) i a ⟨j, hj'⟩
  rw [jv, Jcv, h1, hcol, Matrix.mul_apply]
  simp only [jv, Jcv, val_posJac]
  split_ifs
  · rfl
  · simp

theorem rem_jw_entry (i : ℕ) (a : Fin 3) (j : ℕ) (hj : j < B.n) (hj' : j < B'.n) :
    B'.jw σ i a ⟨j, hj'⟩ = (remRot B B' ρ σ * B.jw ρ i) a ⟨j, hj⟩ := by
  have hcol : SX.vec σ (B'.orCol j) 3 = remRot B B' ρ σ *ᵥ SX.vec ρ (B.orCol j) 3 := by
    have hrv : B'.rev j = B.rev j := by rw [rev, rev, rem_ty hB hr hs]
    rw [vec_orCol, vec_orCol, hrv, rem_axis hB hr hs hu hu', Matrix.mulVec_smul]
  have h1 := val_orJac (B := B') σ i a ⟨j, hj'⟩
  rw [jw, Jcw, h1, hcol, Matrix.mul_apply]
  simp only [jw, Jcw, val_orJac]
  split_ifs
  · rfl
  · simp

end Base

namespace Base

/-- The robot `B` with another base placement and gravity vector. -/
def remount (B : Base) (w g : SX) : Base := { B with w2l := w, g := g }

variable {B : Base} {w g : SX} (hB : B.WF) {ρ σ : Var → ℝ} (hs : SameRobot ρ σ) (hu : B.BaseUnit)
  (hu' : (B.remount w g).BaseUnit)

theorem remount_rem : Remount B (B.remount w g) := ⟨rfl, rfl, rfl, rfl, rfl, rfl⟩

include hB hs hu hu'

theorem remount_jv (i : ℕ) : ((B.remount w g).jv σ i : Matrix (Fin 3) (Fin B.n) ℝ) =
    remRot B (B.remount w g) ρ σ * B.jv ρ i := by
  ext a j
  exact rem_jv_entry hB remount_rem hs hu hu' i a j j.2 j.2

theorem remount_jw (i : ℕ) : ((B.remount w g).jw σ i : Matrix (Fin 3) (Fin B.n) ℝ) =
    remRot B (B.remount w g) ρ σ * B.jw ρ i := by
  ext a j
  exact rem_jw_entry hB remount_rem hs hu hu' i a j j.2 j.2

theorem remount_Mi (i : ℕ) : SX.val σ ((B.remount w g).Mi i) B.n B.n = SX.val ρ (B.Mi i) B.n B.n := by
  have h := val_Mi (B := B.remount w g) σ i
  have hm : (B.remount w g).massV σ i = B.massV ρ i := rem_dyn hB remount_rem hs _
  have hI : (B.remount w g).inertiaV σ i = B.inertiaV ρ i := by
    ext a b; fin_cases a <;> fin_cases b <;> exact rem_dyn hB remount_rem hs _
  have hS := isRot_remRot (ρ := ρ) (σ := σ) hu hu'
  set S := remRot B (B.remount w g) ρ σ
  have hv : ((B.remount w g).jv σ i : Matrix (Fin 3) (Fin B.n) ℝ) = S * B.jv ρ i := remount_jv hB hs hu hu' i
  have hw : ((B.remount w g).jw σ i : Matrix (Fin 3) (Fin B.n) ℝ) = S * B.jw ρ i := remount_jw hB hs hu hu' i
  have hR : (B.remount w g).rotV σ (i + 1) = S * B.rotV ρ (i + 1) := rem_rot hB remount_rem hs hu hu' (i + 1)
  refine h.trans ?_
  rw [val_Mi, hm, hI, hR]
  have key : ∀ {m n : ℕ} (A : Matrix (Fin 3) (Fin m) ℝ) (A' : Matrix (Fin 3) (Fin n) ℝ), (S * A)ᵀ * (S * A') = Aᵀ * A' := by
    intro m n A A'
    rw [Matrix.transpose_mul, Matrix.mul_assoc, ← Matrix.mul_assoc Sᵀ, hS.orth, Matrix.one_mul]
  have e1 : (((B.remount w g).jv σ i)ᵀ * (B.remount w g).jv σ i : Matrix (Fin B.n) (Fin B.n) ℝ) = (B.jv ρ i)ᵀ * B.jv ρ i := by
    rw [← key (B.jv ρ i) (B.jv ρ i), ← hv]; rfl
  have e2 : (((B.remount w g).jw σ i)ᵀ * (S * B.rotV ρ (i + 1)) : Matrix (Fin B.n) (Fin 3) ℝ) = (B.jw ρ i)ᵀ * B.rotV ρ (i + 1) := by
    rw [← key (B.jw ρ i) (B.rotV ρ (i + 1)), ← hw]; rfl
  have e3 : ((S * B.rotV ρ (i + 1))ᵀ * (B.remount w g).jw σ i : Matrix (Fin 3) (Fin B.n) ℝ) = (B.rotV ρ (i + 1))ᵀ * B.jw ρ i := by
    rw [← key (B.rotV ρ (i + 1)) (B.jw ρ i), ← hw]; rfl
  refine congrArg₂ (· + ·) (congrArg (B.massV ρ i • ·) e1) ?_
  have e4 : (((B.remount w g).jw σ i)ᵀ * (S * B.rotV ρ (i + 1)) * B.inertiaV ρ i * (S * B.rotV ρ (i + 1))ᵀ * (B.remount w g).jw σ i :
      Matrix (Fin B.n) (Fin B.n) ℝ) = ((B.remount w g).jw σ i)ᵀ * (S * B.rotV ρ (i + 1)) * B.inertiaV ρ i *
        ((S * B.rotV ρ (i + 1))ᵀ * (B.remount w g).jw σ i) := Matrix.mul_assoc _ _ _
  refine e4.trans ?_
  rw [Matrix.mul_assoc _ (B.rotV ρ (i + 1))ᵀ]
  exact congrArg₂ (· * ·) (congrArg (· * B.inertiaV ρ i) e2) e3

theorem remount_M : SX.val σ (B.remount w g).M B.n B.n = SX.val ρ B.M B.n B.n := by
  have h := val_M (B := B.remount w g) σ
  rw [val_M]
  exact h.trans (Finset.sum_congr rfl fun i _ => remount_Mi hB hs hu hu' i)

omit hB hs hu hu' in
theorem SameRobot.update (h : SameRobot ρ σ) (v : Var) (t : ℝ) :
    SameRobot (Function.update ρ v t) (Function.update σ v t) := fun u h1 h2 => by
  by_cases hv : u = v
  · subst hv; simp
  · rw [Function.update_of_ne hv, Function.update_of_ne hv]; exact h u h1 h2

theorem remount_pd (hB' : (B.remount w g).WF) {a b : ℕ} (ha : a < B.n) (hb : b < B.n) (k : ℕ) :
    pd σ (B.remount w g).M a b k = pd ρ B.M a b k := by
  have h1 := Expr.hasDerivAt_D (ρ := ρ) (v := ⟨"q", k⟩) (smooth_M (S := {⟨"q", k⟩}) hB a b)
  have h2 := Expr.hasDerivAt_D (ρ := σ) (v := ⟨"q", k⟩) (smooth_M (S := {⟨"q", k⟩}) hB' a b)
  rw [Expr.eval_D] at h1 h2
  have e : (fun t => Expr.eval (Function.update ρ ⟨"q", k⟩ t) (B.M.e a b)) =
      fun t => Expr.eval (Function.update σ ⟨"q", k⟩ t) ((B.remount w g).M.e a b) := by
    funext t
    exact (congrFun (congrFun (remount_M hB (hs.update ⟨"q", k⟩ t) hu hu') ⟨a, ha⟩) ⟨b, hb⟩).symm
  have hq : ρ ⟨"q", k⟩ = σ ⟨"q", k⟩ := hs _ (by simp) (by simp)
  rw [e, hq] at h1
  exact h2.unique h1

theorem remount_C (hB' : (B.remount w g).WF) : SX.val σ (B.remount w g).C B.n B.n = SX.val ρ B.C B.n B.n := by
  ext a b
  have h := val_C (B := B.remount w g) σ hB' (a := a) (k := b)
  refine h.trans ?_
  rw [val_C ρ hB]
  have hd : ∀ i : ℕ, σ ⟨"dq", i⟩ = ρ ⟨"dq", i⟩ := fun i => (hs _ (by simp) (by simp)).symm
  have hp := fun {x y : ℕ} (hx : x < B.n) (hy : y < B.n) k => remount_pd hB hs hu hu' hB' hx hy k
  refine congrArg (· / 2) (congrArg₂ (· - ·) (congrArg₂ (· + ·) ?_ ?_) ?_)
  · exact Finset.sum_congr rfl fun i _ => by rw [hp a.2 b.2, hd]
  · refine Finset.sum_congr rfl fun i _ => ?_
    rw [hp a.2 i.2, hd]
  · refine Finset.sum_congr rfl fun i _ => ?_
    rw [hp b.2 i.2, hd]

theorem remount_G (hg : B.g.rows = 3) (hg' : g.rows = 3)
    (h0 : ((B.remount w g).rotV σ 0)ᵀ *ᵥ SX.vec σ g 3 = (B.rotV ρ 0)ᵀ *ᵥ SX.vec ρ B.g 3) :
    SX.vec σ (B.remount w g).G B.n = SX.vec ρ B.G B.n := by
  have h := g_rows_G (B := B.remount w g) σ hg'
  refine h.trans ?_
  rw [g_rows_G ρ hg]
  refine Finset.sum_congr rfl fun i _ => ?_
  have hm : (B.remount w g).massV σ i = B.massV ρ i := rem_dyn hB remount_rem hs _
  have hv : ((B.remount w g).jv σ i : Matrix (Fin 3) (Fin B.n) ℝ) = remRot B (B.remount w g) ρ σ * B.jv ρ i :=
    remount_jv hB hs hu hu' i
  rw [hm]
  refine congrArg (-B.massV ρ i • ·) ?_
  have e : (((B.remount w g).jv σ i)ᵀ *ᵥ SX.vec σ g 3 : Fin B.n → ℝ) =
      (remRot B (B.remount w g) ρ σ * B.jv ρ i)ᵀ *ᵥ SX.vec σ g 3 := by rw [← hv]
  refine e.trans ?_
  rw [Matrix.transpose_mul, ← Matrix.mulVec_mulVec, remRot, Matrix.transpose_mul, Matrix.transpose_transpose,
    ← Matrix.mulVec_mulVec, h0, Matrix.mulVec_mulVec _ (B.rotV ρ 0), (isRot_base hu ρ).orth', Matrix.one_mulVec]

end Base

end

end Thunder
