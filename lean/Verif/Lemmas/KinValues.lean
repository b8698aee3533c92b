import Verif.Lemmas.Jacobian
import Verif.Lemmas.Smooth
import Verif.Spec.Jacobian
import Verif.Sym.Env

/-!
# Values of the frame transforms as real matrices
-/

set_option linter.unusedSectionVars false
set_option linter.unusedSimpArgs false

open scoped Classical
open Matrix

namespace Thunder

noncomputable section

namespace Base

variable [Fl] {B : Base}

/-- Kind of joint `i` as a specification object. -/
def kind (B : Base) (i : ℕ) : Spec.Joint := if isP (B.ty i) then .prismatic else .revolute

/-- DH row `i` (numeric values). -/
def rowV (B : Base) (ρ : Var → ℝ) (i : ℕ) : Fin 4 → ℝ := fun k => Expr.eval ρ (B.dh.e (i * 4 + k) 0)

/-- Frame of a 6-vector `[x y z yaw pitch roll]`. -/
def frameV (ρ : Var → ℝ) (F : SX) : Matrix (Fin 4) (Fin 4) ℝ :=
  Spec.frame (SX.vec ρ F 3) (Spec.cs (Expr.eval ρ (F.e 3 0))) (Spec.cs (Expr.eval ρ (F.e 4 0)))
    (Spec.cs (Expr.eval ρ (F.e 5 0)))

end Base

variable [Fl] {B : Base}


theorem val_homog_eq {A R p : SX} (h : IsHomOf A R p) (ρ) (T : Matrix (Fin 4) (Fin 4) ℝ) (hr : Spec.rot T = SX.val ρ R 3 3)
    (hp : Spec.pos T = SX.vec ρ p 3) (hb : ∀ j : Fin 4, T 3 j = if j = 3 then 1 else 0) : SX.val ρ A 4 4 = T := by
  have hr' : ∀ i j : Fin 3, T i.castSucc j.castSucc = Expr.eval ρ (R.e i j) := fun i j => congrFun (congrFun hr i) j
  have hp' : ∀ i : Fin 3, T i.castSucc 3 = Expr.eval ρ (p.e i 0) := fun i => congrFun hp i
  ext i j
  rw [SX.val_apply, h.e]
  refine Fin.lastCases ?_ (fun i => ?_) i
  · have := hb j
    change _ = T 3 j
    rw [this]
    refine Fin.lastCases ?_ (fun j => ?_) j
    · simp [homog]
    · have h1 : (j.castSucc : Fin 4) ≠ 3 := by intro h; have := congrArg Fin.val h; simp at this; omega
      have h2 : (j : ℕ) ≠ 3 := by omega
      simp [homog, h1, h2]
  · refine Fin.lastCases ?_ (fun j => ?_) j
    · have := hp' i
      change _ = T i.castSucc 3
      rw [this]; simp [homog]
    · rw [hr']; simp [homog]

theorem dh_rot (a d : ℝ) (α θ : ℝ × ℝ) : Spec.rot (Spec.dh a α d θ) = rX α * rZ θ := by
  ext i j
  fin_cases i <;> fin_cases j <;>
    simp [Spec.rot, Spec.dh, Spec.trans, Spec.rotX, Spec.rotZ, rX, rZ, Matrix.mul_apply, Fin.sum_univ_four, Fin.sum_univ_three]
theorem dh_pos (a d : ℝ) (α θ : ℝ × ℝ) : Spec.pos (Spec.dh a α d θ) = rX α *ᵥ ![0, 0, d] + ![a, 0, 0] := by
  ext i
  fin_cases i <;>
    simp [Spec.pos, Spec.dh, Spec.trans, Spec.rotX, Spec.rotZ, rX, Matrix.mul_apply, Fin.sum_univ_four, mulVec, dotProduct,
      Fin.sum_univ_three, mul_comm]
theorem dh_bot (a d : ℝ) (α θ : ℝ × ℝ) (j : Fin 4) : Spec.dh a α d θ 3 j = if j = 3 then 1 else 0 := by
  fin_cases j <;>
    simp [Spec.dh, Spec.trans, Spec.rotX, Spec.rotZ, Matrix.mul_apply, Fin.sum_univ_four]
theorem frame_rot (p : Fin 3 → ℝ) (y t r : ℝ × ℝ) : Spec.rot (Spec.frame p y t r) = rZ y * rY t * rX r := by
  ext i j
  fin_cases i <;> fin_cases j <;>
    simp [Spec.rot, Spec.frame, Spec.trans, Spec.rotX, Spec.rotY, Spec.rotZ, rX, rY, rZ, Matrix.mul_apply, Fin.sum_univ_four,
      Fin.sum_univ_three]
theorem frame_pos (p : Fin 3 → ℝ) (y t r : ℝ × ℝ) : Spec.pos (Spec.frame p y t r) = p := by
  ext i
  fin_cases i <;>
    simp [Spec.pos, Spec.frame, Spec.trans, Spec.rotX, Spec.rotY, Spec.rotZ, Matrix.mul_apply, Fin.sum_univ_four]
theorem frame_bot (p : Fin 3 → ℝ) (y t r : ℝ × ℝ) (j : Fin 4) : Spec.frame p y t r 3 j = if j = 3 then 1 else 0 := by
  fin_cases j <;>
    simp [Spec.frame, Spec.trans, Spec.rotX, Spec.rotY, Spec.rotZ, Matrix.mul_apply, Fin.sum_univ_four]

/-- Link transform in terms of the cosine/sine pairs actually used (no hypothesis on the library functions). -/
theorem val_Ti_pairs (ρ : Var → ℝ) (i : ℕ) : SX.val ρ (B.Ti (i + 1)) 4 4 =
    Spec.dh (Expr.eval ρ (B.dh.e (i * 4) 0)) (ang ρ (B.alphaE i)) (Expr.eval ρ (B.dE i)) (ang ρ (B.thetaE i)) := by
  refine val_homog_eq (B.Ti_isHomOf i) ρ _ ?_ ?_ (dh_bot _ _ _ _)
  · rw [dh_rot, Base.val_linkR]; rfl
  · rw [dh_pos, Base.vec_linkP]; rfl

theorem val_getTransform_pairs (ρ : Var → ℝ) (F : SX) : SX.val ρ (getTransform F) 4 4 =
    Spec.frame (SX.vec ρ F 3) (ang ρ (F.e 3 0)) (ang ρ (F.e 4 0)) (ang ρ (F.e 5 0)) := by
  refine val_homog_eq (Base.getTransform_isHomOf F) ρ _ ?_ ?_ (frame_bot _ _ _ _)
  · rw [frame_rot, ← (Base.getTransform_isHomOf F).val_rot, Base.val_rot_getTransform]
  · rw [frame_pos]; ext i; simp [SX.block]

theorem isRigid_of {A : SX} (ρ) (hr : IsRot (SX.val ρ (rotB A) 3 3)) (hb : IsHom ρ A) : Spec.IsRigid (SX.val ρ A 4 4) where
  rot := by
    have : Spec.rot (SX.val ρ A 4 4) = SX.val ρ (rotB A) 3 3 := by ext i j; rw [val_rotB_apply]; rfl
    rw [this]; exact hr
  bottom := hb.bot

theorem qdir_single (j : ℕ) : QDir (Expr.single ⟨"q", j⟩) := fun v hv => Expr.single_ne (by rintro rfl; exact hv rfl)

theorem spv_single (j : Fin B.n) : B.spv (Expr.single ⟨"q", j⟩) = Pi.single j 1 := by
  funext k
  simp only [Base.spv, Base.sp, Expr.single, Var.mk.injEq, true_and, Pi.single_apply, Fin.val_inj]

theorem lin_J (ρ) (i : ℕ) : Spec.lin (SX.val ρ (B.J i) 6 B.n) = SX.val ρ (B.Jv i) 3 B.n := by
  ext a j
  have : (B.Jv i).rows = 3 := by simp only [Base.Jv]; split_ifs <;> rfl
  simp [Spec.lin, Base.J, SX.vcat, this]

theorem ang_J (ρ) (i : ℕ) : Spec.angRows (SX.val ρ (B.J i) 6 B.n) = SX.val ρ (B.Jw i) 3 B.n := by
  ext a j
  have : (B.Jv i).rows = 3 := by simp only [Base.Jv]; split_ifs <;> rfl
  simp [Spec.angRows, Base.J, SX.vcat, this]

end

end Thunder
