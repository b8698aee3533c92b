import Verif.Model.Kinematics
import Verif.Spec.Kinematics

/-!
# Values and directional derivatives of the kinematic expressions
-/

open scoped Classical
open Matrix

namespace Thunder

noncomputable section

theorem val_mat33 (ρ) (a b c d e f g h i : Expr) :
    SX.val ρ (mat33 a b c d e f g h i) 3 3 =
      !![a.eval ρ, b.eval ρ, c.eval ρ; d.eval ρ, e.eval ρ, f.eval ρ; g.eval ρ, h.eval ρ, i.eval ρ] := by
  ext r s; fin_cases r <;> fin_cases s <;> rfl
theorem dval_mat33 (ρ δ) (a b c d e f g h i : Expr) :
    SX.dval ρ δ (mat33 a b c d e f g h i) 3 3 =
      !![a.dir ρ δ, b.dir ρ δ, c.dir ρ δ; d.dir ρ δ, e.dir ρ δ, f.dir ρ δ; g.dir ρ δ, h.dir ρ δ, i.dir ρ δ] := by
  ext r s; fin_cases r <;> fin_cases s <;> rfl
theorem vec_col3 (ρ) (a b c : Expr) : SX.vec ρ (col3 a b c) 3 = ![a.eval ρ, b.eval ρ, c.eval ρ] := by
  ext r; fin_cases r <;> rfl
theorem dvec_col3 (ρ δ) (a b c : Expr) : SX.dvec ρ δ (col3 a b c) 3 = ![a.dir ρ δ, b.dir ρ δ, c.dir ρ δ] := by
  ext r; fin_cases r <;> rfl

/-- Real rotation matrices from cosine/sine pairs. -/
def rX (t : ℝ × ℝ) : Matrix (Fin 3) (Fin 3) ℝ := !![1, 0, 0; 0, t.1, -t.2; 0, t.2, t.1]
def rY (t : ℝ × ℝ) : Matrix (Fin 3) (Fin 3) ℝ := !![t.1, 0, t.2; 0, 1, 0; -t.2, 0, t.1]
def rZ (t : ℝ × ℝ) : Matrix (Fin 3) (Fin 3) ℝ := !![t.1, -t.2, 0; t.2, t.1, 0; 0, 0, 1]

/-- Third unit vector. -/
def e3 : Fin 3 → ℝ := ![0, 0, 1]

theorem rZ_e3 (t : ℝ × ℝ) : rZ t *ᵥ e3 = e3 := by
  ext i; fin_cases i <;> simp [rZ, e3, mulVec, dotProduct, Fin.sum_univ_three]

/-! ### Homogeneous transforms -/

/-- Last row `0 0 0 1`, 4 columns. -/
structure IsHom (ρ : Var → ℝ) (A : SX) : Prop where
  rows : A.rows = 4
  cols : A.cols = 4
  bot : ∀ j : Fin 4, Expr.eval ρ (A.e 3 j) = if j = 3 then 1 else 0

/-- Rotation block and translation column of a 4×4 matrix of expressions. -/
def rotB (A : SX) : SX := SX.block A 0 3 0 3
def traB (A : SX) : SX := SX.block A 0 3 3 1

theorem val_rotB_apply (ρ) (A : SX) (i j : Fin 3) : SX.val ρ (rotB A) 3 3 i j = Expr.eval ρ (A.e i j) := by
  simp [rotB, SX.block]
theorem dval_rotB_apply (ρ δ) (A : SX) (i j : Fin 3) : SX.dval ρ δ (rotB A) 3 3 i j = Expr.dir ρ δ (A.e i j) := by
  simp [rotB, SX.block]
theorem vec_traB_apply (ρ) (A : SX) (i : Fin 3) : SX.vec ρ (traB A) 3 i = Expr.eval ρ (A.e i 3) := by
  simp [traB, SX.block]
theorem dvec_traB_apply (ρ δ) (A : SX) (i : Fin 3) : SX.dvec ρ δ (traB A) 3 i = Expr.dir ρ δ (A.e i 3) := by
  simp [traB, SX.block]

/-- A matrix with the entries of `homog R p`. -/
structure IsHomOf (A R p : SX) : Prop where
  rows : A.rows = 4
  cols : A.cols = 4
  e : A.e = (homog R p).e

theorem IsHomOf.val_rot {A R p : SX} (h : IsHomOf A R p) (ρ) : SX.val ρ (rotB A) 3 3 = SX.val ρ R 3 3 := by
  ext i j; rw [val_rotB_apply, h.e]; simp [homog]
theorem IsHomOf.dval_rot {A R p : SX} (h : IsHomOf A R p) (ρ δ) : SX.dval ρ δ (rotB A) 3 3 = SX.dval ρ δ R 3 3 := by
  ext i j; rw [dval_rotB_apply, h.e]; simp [homog]
theorem IsHomOf.vec_tra {A R p : SX} (h : IsHomOf A R p) (ρ) : SX.vec ρ (traB A) 3 = SX.vec ρ p 3 := by
  ext i; rw [vec_traB_apply, h.e]; simp [homog]
theorem IsHomOf.dvec_tra {A R p : SX} (h : IsHomOf A R p) (ρ δ) : SX.dvec ρ δ (traB A) 3 = SX.dvec ρ δ p 3 := by
  ext i; rw [dvec_traB_apply, h.e]; simp [homog]
theorem IsHomOf.e3j {A R p : SX} (h : IsHomOf A R p) (j : ℕ) : A.e 3 j = if j = 3 then .const 1 else .const 0 := by
  rw [h.e]; simp [homog]
theorem IsHomOf.isHom {A R p : SX} (h : IsHomOf A R p) (ρ) : IsHom ρ A where
  rows := h.rows
  cols := h.cols
  bot := by
    intro j; rw [h.e3j]
    fin_cases j <;> simp

section mtimes

variable {A T R p : SX} (h : IsHomOf T R p) (hA : A.cols = 4) (ρ δ : Var → ℝ)
include h hA

theorem val_rotB_mtimes : SX.val ρ (rotB (SX.mtimes A T)) 3 3 = SX.val ρ (rotB A) 3 3 * SX.val ρ R 3 3 := by
  ext i j
  rw [val_rotB_apply, ← h.val_rot ρ]
  have hj : (j : ℕ) ≠ 3 := by omega
  simp [SX.mtimes, hA, Finset.sum_range_succ, h.e3j, hj, Matrix.mul_apply, Fin.sum_univ_three, rotB, SX.block]

theorem dval_rotB_mtimes : SX.dval ρ δ (rotB (SX.mtimes A T)) 3 3 =
    SX.dval ρ δ (rotB A) 3 3 * SX.val ρ R 3 3 + SX.val ρ (rotB A) 3 3 * SX.dval ρ δ R 3 3 := by
  ext i j
  rw [dval_rotB_apply, ← h.val_rot ρ, ← h.dval_rot ρ δ]
  have hj : (j : ℕ) ≠ 3 := by omega
  simp [SX.mtimes, hA, Finset.sum_range_succ, h.e3j, hj, Matrix.mul_apply, Fin.sum_univ_three, rotB, SX.block]
  ring

theorem vec_traB_mtimes : SX.vec ρ (traB (SX.mtimes A T)) 3 =
    SX.val ρ (rotB A) 3 3 *ᵥ SX.vec ρ p 3 + SX.vec ρ (traB A) 3 := by
  ext i
  rw [vec_traB_apply, ← h.vec_tra ρ]
  simp [SX.mtimes, hA, Finset.sum_range_succ, h.e3j, mulVec, dotProduct, Fin.sum_univ_three, rotB, traB, SX.block]

theorem dvec_traB_mtimes : SX.dvec ρ δ (traB (SX.mtimes A T)) 3 =
    SX.dval ρ δ (rotB A) 3 3 *ᵥ SX.vec ρ p 3 + SX.val ρ (rotB A) 3 3 *ᵥ SX.dvec ρ δ p 3 + SX.dvec ρ δ (traB A) 3 := by
  ext i
  rw [dvec_traB_apply, ← h.vec_tra ρ, ← h.dvec_tra ρ δ]
  simp [SX.mtimes, hA, Finset.sum_range_succ, h.e3j, mulVec, dotProduct, Fin.sum_univ_three, rotB, traB, SX.block]
  ring

theorem isHom_mtimes (hb : IsHom ρ A) : IsHom ρ (SX.mtimes A T) where
  rows := hb.rows
  cols := h.cols
  bot := by
    intro j
    have h0 := hb.bot 0
    have h1 := hb.bot 1
    have h2 := hb.bot 2
    have h3 := hb.bot 3
    simp at h0 h1 h2 h3
    simp [SX.mtimes, hA, Finset.sum_range_succ, h0, h1, h2, h3, h.e3j]
    fin_cases j <;> simp

end mtimes

/-! ### Angles and elementary rotations -/

variable [Fl]

/-- Cosine and sine used for an angle expression: snapped library results for a numeric angle, the true ones otherwise. -/
def ang (ρ : Var → ℝ) : Expr → ℝ × ℝ
  | .const c => (Spec.snap (Fl.cosF c), Spec.snap (Fl.sinF c))
  | e => Spec.cs (Expr.eval ρ e)

theorem eval_zis_ccos (ρ) (t : Expr) : Expr.eval ρ (zis (ccos t)) = (ang ρ t).1 := by
  cases t <;> simp [ccos, zis, ang, Spec.cs, Spec.snap]
  split_ifs <;> rfl
theorem eval_zis_csin (ρ) (t : Expr) : Expr.eval ρ (zis (csin t)) = (ang ρ t).2 := by
  cases t <;> simp [csin, zis, ang, Spec.cs, Spec.snap]
  split_ifs <;> rfl
theorem eval_zis_cneg_csin (ρ) (t : Expr) : Expr.eval ρ (zis (cneg (csin t))) = -(ang ρ t).2 := by
  cases t <;> simp [csin, zis, cneg, ang, Spec.cs, Spec.snap]
  split_ifs <;> simp
theorem dir_zis_ccos (ρ δ) (t : Expr) : Expr.dir ρ δ (zis (ccos t)) = -(ang ρ t).2 * Expr.dir ρ δ t := by
  cases t <;> simp [ccos, zis, ang, Spec.cs, Expr.dir]
  split_ifs <;> rfl
theorem dir_zis_csin (ρ δ) (t : Expr) : Expr.dir ρ δ (zis (csin t)) = (ang ρ t).1 * Expr.dir ρ δ t := by
  cases t <;> simp [csin, zis, ang, Spec.cs, Expr.dir]
  split_ifs <;> rfl
theorem dir_zis_cneg_csin (ρ δ) (t : Expr) :
    Expr.dir ρ δ (zis (cneg (csin t))) = -(ang ρ t).1 * Expr.dir ρ δ t := by
  cases t <;> simp [csin, zis, cneg, ang, Spec.cs, Expr.dir]
  split_ifs <;> rfl

theorem val_rotX (ρ) (t : Expr) : SX.val ρ (rotX t) 3 3 = rX (ang ρ t) := by
  simp [rotX, val_mat33, eval_zis_ccos, eval_zis_csin, eval_zis_cneg_csin, rX]
theorem val_rotY (ρ) (t : Expr) : SX.val ρ (rotY t) 3 3 = rY (ang ρ t) := by
  simp [rotY, val_mat33, eval_zis_ccos, eval_zis_csin, eval_zis_cneg_csin, rY]
theorem val_rotZ (ρ) (t : Expr) : SX.val ρ (rotZ t) 3 3 = rZ (ang ρ t) := by
  simp [rotZ, val_mat33, eval_zis_ccos, eval_zis_csin, eval_zis_cneg_csin, rZ]

theorem dval_rotX (ρ δ) (t : Expr) (h : Expr.dir ρ δ t = 0) : SX.dval ρ δ (rotX t) 3 3 = 0 := by
  simp only [rotX, dval_mat33, dir_zis_ccos, dir_zis_csin, dir_zis_cneg_csin, h, Expr.dir_const, mul_zero]
  ext i j; fin_cases i <;> fin_cases j <;> rfl
theorem dval_rotY (ρ δ) (t : Expr) (h : Expr.dir ρ δ t = 0) : SX.dval ρ δ (rotY t) 3 3 = 0 := by
  simp only [rotY, dval_mat33, dir_zis_ccos, dir_zis_csin, dir_zis_cneg_csin, h, Expr.dir_const, mul_zero]
  ext i j; fin_cases i <;> fin_cases j <;> rfl
theorem dval_rotZ (ρ δ) (t : Expr) :
    SX.dval ρ δ (rotZ t) 3 3 = Expr.dir ρ δ t • (rZ (ang ρ t) * hat e3) := by
  simp only [rotZ, dval_mat33, dir_zis_ccos, dir_zis_csin, dir_zis_cneg_csin]
  ext i j; fin_cases i <;> fin_cases j <;>
    simp [rZ, hat, e3] <;> ring

end

end Thunder
