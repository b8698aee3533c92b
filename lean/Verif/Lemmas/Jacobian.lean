import Verif.Lemmas.Chain

/-!
# Values of the Jacobian expressions
-/

open scoped Classical
open Matrix

namespace Thunder

noncomputable section

theorem val_hatX (ρ) (v : SX) : SX.val ρ (hatX v) 3 3 = hat (SX.vec ρ v 3) := by
  ext i j; fin_cases i <;> fin_cases j <;> simp [hatX, mat33, hat]

/-- Sum over `Fin n` of a function supported on `j ≤ im`. -/
theorem sum_fin_le {M : Type*} [AddCommMonoid M] {n im : ℕ} (h : im < n) (f : ℕ → M) :
    ∑ j : Fin n, (if (j : ℕ) ≤ im then f j else 0) = ∑ j ∈ Finset.range (im + 1), f j := by
  rw [← Finset.sum_range (fun j => if j ≤ im then f j else 0), ← Finset.sum_filter]
  congr 1
  ext j
  simp only [Finset.mem_filter, Finset.mem_range]
  omega

namespace Base

variable [Fl] {B : Base} (ρ δ : Var → ℝ)

/-- Joint velocity vector of a direction. -/
def spv (B : Base) (δ : Var → ℝ) : Fin B.n → ℝ := fun j => sp δ j

theorem vec_posCol (O : SX) (j : ℕ) : SX.vec ρ (B.posCol O j) 3 =
    B.pri j • B.axis ρ (j + 1) + B.rev j • (hat (B.axis ρ (j + 1)) *ᵥ (SX.vec ρ O 3 - SX.vec ρ (B.P0 (j + 1)) 3)) := by
  unfold posCol pri rev
  split_ifs with h
  · simp [vec_K0]
  · have := SX.vec_mtimes ρ (hatX (B.K0 (j + 1))) (SX.sub O (B.P0 (j + 1))) 3 3 rfl
    rw [val_hatX, vec_K0, SX.vec_sub] at this
    simp only [zero_smul, zero_add, one_smul]
    exact this

theorem vec_orCol (j : ℕ) : SX.vec ρ (B.orCol j) 3 = B.rev j • B.axis ρ (j + 1) := by
  unfold orCol rev
  split_ifs with h
  · ext a; simp [SX.zeros]
  · simp [vec_K0]

theorem val_posJac (O : SX) (im : ℕ) (a : Fin 3) (j : Fin B.n) :
    SX.val ρ (B.posJac O im) 3 B.n a j = if (j : ℕ) ≤ im then SX.vec ρ (B.posCol O j) 3 a else 0 := by
  simp only [SX.val_apply, posJac, j.2, and_true, SX.vec_apply]
  split_ifs <;> rfl

theorem val_orJac (im : ℕ) (a : Fin 3) (j : Fin B.n) :
    SX.val ρ (B.orJac im) 3 B.n a j = if (j : ℕ) ≤ im then SX.vec ρ (B.orCol j) 3 a else 0 := by
  simp only [SX.val_apply, orJac, j.2, and_true, SX.vec_apply]
  split_ifs <;> rfl

theorem posJac_mulVec (O : SX) {im : ℕ} (h : im < B.n) :
    SX.val ρ (B.posJac O im) 3 B.n *ᵥ B.spv δ = B.velo ρ δ (im + 1) (SX.vec ρ O 3) := by
  ext a
  simp only [mulVec, dotProduct, val_posJac, spv, velo, ite_mul, zero_mul]
  rw [sum_fin_le h (fun j => SX.vec ρ (B.posCol O j) 3 a * sp δ j), Finset.sum_apply]
  refine Finset.sum_congr rfl fun j _ => ?_
  rw [vec_posCol, Pi.smul_apply, smul_eq_mul, mul_comm]

theorem orJac_mulVec {im : ℕ} (h : im < B.n) :
    SX.val ρ (B.orJac im) 3 B.n *ᵥ B.spv δ = B.omega ρ δ (im + 1) := by
  ext a
  simp only [mulVec, dotProduct, val_orJac, spv, omega, ite_mul, zero_mul]
  rw [sum_fin_le h (fun j => SX.vec ρ (B.orCol j) 3 a * sp δ j), Finset.sum_apply]
  refine Finset.sum_congr rfl fun j _ => ?_
  rw [vec_orCol, Pi.smul_apply, Pi.smul_apply, smul_eq_mul, smul_eq_mul]
  ring

omit [Fl] in
theorem imod_of_lt {i : ℕ} (h : i < B.n) : B.imod i = i := by simp [imod, h]
omit [Fl] in
theorem imod_n : B.imod B.n = B.n - 1 := by simp [imod]

variable (hB : B.WF)
include hB

/-- `J_{i+1}` (linear part) maps joint velocities to the derivative of the frame origin. -/
theorem Jv_mulVec (hU : B.UnitAngles) (hδ : QDir δ) {i : ℕ} (h : i < B.n) :
    SX.val ρ (B.Jv i) 3 B.n *ᵥ B.spv δ = SX.dvec ρ δ (B.P0 (i + 1)) 3 := by
  rw [Jv, if_neg (by omega), imod_of_lt h, posJac_mulVec ρ δ _ h, dvec_P0 hB ρ δ hU hδ (by omega)]

theorem Jw_mulVec (hU : B.UnitAngles) (hδ : QDir δ) {i : ℕ} (h : i < B.n) :
    hat (SX.val ρ (B.Jw i) 3 B.n *ᵥ B.spv δ) * SX.val ρ (B.R0 (i + 1)) 3 3 = SX.dval ρ δ (B.R0 (i + 1)) 3 3 := by
  rw [Jw, imod_of_lt h, orJac_mulVec ρ δ h, dval_R0 hB ρ δ hU hδ (by omega)]

/-! End effector -/

theorem dval_ee_rot (hδ : QDir δ) : SX.dval ρ δ (rotB (getTransform B.ee)) 3 3 = 0 :=
  SX.dval_eq_zero (over_rotB (over_getTransform hB.ee.over)) (fun v hv => hδ v (by rw [hv.1]; decide)) 3 3

theorem dvec_ee_tra (hδ : QDir δ) : SX.dvec ρ δ (traB (getTransform B.ee)) 3 = 0 := by
  ext a
  exact Expr.dir_eq_zero fun v hv => hδ v (by rw [(over_traB (over_getTransform hB.ee.over) _ _ hv).1]; decide)

omit hB in
theorem T0ee_rot : SX.val ρ (rotB B.T0ee) 3 3 =
    SX.val ρ (B.R0 B.n) 3 3 * SX.val ρ (rotB (getTransform B.ee)) 3 3 := by
  rw [T0ee, val_rotB_mtimes (getTransform_isHomOf B.ee) (B.T0_cols _), ← (getTransform_isHomOf B.ee).val_rot]; rfl

omit hB in
theorem T0ee_tra : SX.vec ρ (traB B.T0ee) 3 =
    SX.val ρ (B.R0 B.n) 3 3 *ᵥ SX.vec ρ (traB (getTransform B.ee)) 3 + SX.vec ρ (B.P0 B.n) 3 := by
  rw [T0ee, vec_traB_mtimes (getTransform_isHomOf B.ee) (B.T0_cols _), ← (getTransform_isHomOf B.ee).vec_tra]; rfl

theorem isRot_T0ee (hU : B.UnitAngles) : IsRot (SX.val ρ (rotB B.T0ee) 3 3) := by
  rw [T0ee_rot]
  exact (isRot_R0 hB ρ hU le_rfl).mul
    (isRot_getTransform ρ fun k h1 h2 c hc => hU c (.inr ⟨k, h1, h2, .inr hc⟩))

theorem Jee_lin_mulVec (hU : B.UnitAngles) (hδ : QDir δ) :
    SX.val ρ (B.Jv B.n) 3 B.n *ᵥ B.spv δ = SX.dvec ρ δ (traB B.T0ee) 3 := by
  have hn : B.n - 1 < B.n := by have := hB.npos; omega
  have hn1 : B.n - 1 + 1 = B.n := by omega
  rw [Jv, if_pos rfl, imod_n, hn1]
  simp only
  rw [SX.val_sub, SX.val_mtimes ρ _ _ 3 3 B.n rfl, SX.val_mtimes ρ _ _ 3 3 3 rfl, SX.val_mtimes ρ _ _ 3 3 3 rfl,
    val_hatX, SX.val_transp, Matrix.sub_mulVec, posJac_mulVec ρ δ _ hn, hn1, ← Matrix.mulVec_mulVec, orJac_mulVec ρ δ hn, hn1,
    (isRot_R0 hB ρ hU le_rfl).hat_conj, ← dvec_P0 hB ρ δ hU hδ le_rfl, T0ee,
    dvec_traB_mtimes (getTransform_isHomOf B.ee) (B.T0_cols _), ← (getTransform_isHomOf B.ee).vec_tra,
    ← (getTransform_isHomOf B.ee).dvec_tra, dvec_ee_tra ρ δ hB hδ, ← R0_eq, ← P0_eq, dval_R0 hB ρ δ hU hδ le_rfl,
    ← Matrix.mulVec_mulVec, hat_anticomm]
  simp only [Matrix.mulVec_zero, traB]
  abel

theorem Jee_ang_mulVec (hU : B.UnitAngles) (hδ : QDir δ) :
    hat (SX.val ρ (B.Jw B.n) 3 B.n *ᵥ B.spv δ) * SX.val ρ (rotB B.T0ee) 3 3 = SX.dval ρ δ (rotB B.T0ee) 3 3 := by
  have hn : B.n - 1 < B.n := by have := hB.npos; omega
  have hn1 : B.n - 1 + 1 = B.n := by omega
  rw [Jw, imod_n, orJac_mulVec ρ δ hn, hn1]
  conv_rhs => rw [T0ee]
  rw [dval_rotB_mtimes (getTransform_isHomOf B.ee) (B.T0_cols _), ← (getTransform_isHomOf B.ee).val_rot,
    ← (getTransform_isHomOf B.ee).dval_rot, dval_ee_rot ρ δ hB hδ, Matrix.mul_zero, add_zero, ← R0_eq,
    dval_R0 hB ρ δ hU hδ le_rfl, Matrix.mul_assoc, T0ee_rot]

end Base

end

end Thunder
