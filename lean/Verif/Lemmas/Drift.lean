import Verif.Lemmas.Near
import Verif.Lemmas.Dynamics

/-!
# Two chains whose angles differ slightly
-/

open Matrix

namespace Thunder

noncomputable section

open Spec

set_option linter.unusedSectionVars false

/-! ### Elementary rotations -/

/-- `t` is the cosine and the sine of an angle and `t'` is at a distance of at most `u`. -/
structure PairNear (u : ℝ) (t' t : ℝ × ℝ) : Prop where
  diff : (t'.1 - t.1) ^ 2 + (t'.2 - t.2) ^ 2 ≤ u ^ 2
  unit : t.1 ^ 2 + t.2 ^ 2 = 1

variable {u : ℝ} (hu : 0 ≤ u)

theorem isRot_len {R : Matrix (Fin 3) (Fin 3) ℝ} (h : IsRot R) (x : Fin 3 → ℝ) : len (R *ᵥ x) = len x := by
  have : (R *ᵥ x) ⬝ᵥ (R *ᵥ x) = x ⬝ᵥ x := by rw [dotProduct_mulVec, vecMul_mulVec, h.orth, vecMul_one]
  rw [len, this, len]

include hu in
theorem nearM_rot {R' R : Matrix (Fin 3) (Fin 3) ℝ} (h : IsRot R) {a : ℝ} (ha : a ≤ u ^ 2) (hd : ∀ x, ((R' - R) *ᵥ x) ⬝ᵥ ((R' - R) *ᵥ x) ≤ a * (x ⬝ᵥ x)) :
    NearM u 1 1 R' R where
  diff := fun x => by
    have e : gap u 1 * 1 * len x = u * len x := by unfold gap; ring
    rw [e]
    refine len_le_of_sq (mul_nonneg hu (len_nonneg _)) ((hd x).trans ?_)
    rw [mul_pow, len_sq]
    exact mul_le_mul_of_nonneg_right ha (by rw [← len_sq]; positivity)
  size := fun x => by rw [isRot_len h, one_mul]
  nonneg := zero_le_one

include hu in
theorem nearM_rX {t' t : ℝ × ℝ} (h : PairNear u t' t) : NearM u 1 1 (rX t') (rX t) :=
  nearM_rot hu (Base.isRot_rX h.unit) h.diff fun x => by
    simp only [rX, mulVec, dotProduct, Fin.sum_univ_three, Matrix.sub_apply, Matrix.of_apply, Matrix.cons_val', Matrix.cons_val_zero, Matrix.cons_val_one,
      Matrix.cons_val]
    nlinarith [mul_nonneg (add_nonneg (sq_nonneg (t'.1 - t.1)) (sq_nonneg (t'.2 - t.2))) (sq_nonneg (x 0))]

include hu in
theorem nearM_rY {t' t : ℝ × ℝ} (h : PairNear u t' t) : NearM u 1 1 (rY t') (rY t) :=
  nearM_rot hu (Base.isRot_rY h.unit) h.diff fun x => by
    simp only [rY, mulVec, dotProduct, Fin.sum_univ_three, Matrix.sub_apply, Matrix.of_apply, Matrix.cons_val', Matrix.cons_val_zero, Matrix.cons_val_one,
      Matrix.cons_val]
    nlinarith [mul_nonneg (add_nonneg (sq_nonneg (t'.1 - t.1)) (sq_nonneg (t'.2 - t.2))) (sq_nonneg (x 1))]

include hu in
theorem nearM_rZ {t' t : ℝ × ℝ} (h : PairNear u t' t) : NearM u 1 1 (rZ t') (rZ t) :=
  nearM_rot hu (Base.isRot_rZ h.unit) h.diff fun x => by
    simp only [rZ, mulVec, dotProduct, Fin.sum_univ_three, Matrix.sub_apply, Matrix.of_apply, Matrix.cons_val', Matrix.cons_val_zero, Matrix.cons_val_one,
      Matrix.cons_val]
    nlinarith [mul_nonneg (add_nonneg (sq_nonneg (t'.1 - t.1)) (sq_nonneg (t'.2 - t.2))) (sq_nonneg (x 2))]

theorem len_e3 : len e3 = 1 := by
  simp [len, e3, dotProduct, Fin.sum_univ_three]
theorem nearV_e3 : NearV u 0 1 e3 e3 := nearV_self len_e3.le
theorem len_z (d : ℝ) : len ![0, 0, d] = |d| := by
  simp [len, dotProduct, Fin.sum_univ_three, Real.sqrt_mul_self_eq_abs]
theorem len_x (d : ℝ) : len ![d, 0, 0] = |d| := by
  simp [len, dotProduct, Fin.sum_univ_three, Real.sqrt_mul_self_eq_abs]
theorem nearM_hat_e3 : NearM u 0 1 (hat e3) (hat e3) :=
  nearM_self zero_le_one fun x => (len_hat_le _ _).trans (by rw [len_e3])

/-! ### Chains -/

/-- Two chains with the same joints and parameters except for the angles, which are close. -/
structure Close [Fl] (u : ℝ) (B : Base) (ρ : Var → ℝ) (B₀ : Base) (ρ₀ : Var → ℝ) : Prop where
  wf : B.WF
  wf₀ : B₀.WF
  n : B₀.n = B.n
  ty : ∀ i, B₀.ty i = B.ty i
  alpha : ∀ i < B.n, PairNear u (ang ρ (B.alphaE i)) (ang ρ₀ (B₀.alphaE i))
  theta : ∀ i < B.n, PairNear u (ang ρ (B.thetaE i)) (ang ρ₀ (B₀.thetaE i))
  mount : ∀ k, 3 ≤ k → k < 6 → PairNear u (ang ρ (B.w2l.e k 0)) (ang ρ₀ (B₀.w2l.e k 0))
  tool : ∀ k, 3 ≤ k → k < 6 → PairNear u (ang ρ (B.ee.e k 0)) (ang ρ₀ (B₀.ee.e k 0))
  a : ∀ i < B.n, Expr.eval ρ (B.dh.e (i * 4) 0) = Expr.eval ρ₀ (B₀.dh.e (i * 4) 0)
  d : ∀ i < B.n, Expr.eval ρ (B.dE i) = Expr.eval ρ₀ (B₀.dE i)
  mountP : ∀ k < 3, Expr.eval ρ (B.w2l.e k 0) = Expr.eval ρ₀ (B₀.w2l.e k 0)
  toolP : ∀ k < 3, Expr.eval ρ (B.ee.e k 0) = Expr.eval ρ₀ (B₀.ee.e k 0)
  mass : ∀ i < B.n, B.massV ρ i = B₀.massV ρ₀ i
  com : ∀ i < B.n, B.comV ρ i = B₀.comV ρ₀ i
  inertia : ∀ i < B.n, B.inertiaV ρ i = B₀.inertiaV ρ₀ i
  g : SX.vec ρ B.g 3 = SX.vec ρ₀ B₀.g 3

namespace Base

/-- Length of the offsets of link `i`. -/
def off (B : Base) (ρ : Var → ℝ) (i : ℕ) : ℝ := |Expr.eval ρ (B.dh.e (i * 4) 0)| + |Expr.eval ρ (B.dE i)|

end Base

namespace Close

variable [Fl] {B B₀ : Base} {ρ ρ₀ : Var → ℝ} (h : Close u B ρ B₀ ρ₀)
include h

theorem rev (i : ℕ) : B₀.rev i = B.rev i := by unfold Base.rev; rw [h.ty]
theorem pri (i : ℕ) : B₀.pri i = B.pri i := by unfold Base.pri; rw [h.ty]

include hu

theorem link {i : ℕ} (hi : i < B.n) : NearM u 2 1 (B.linkRot ρ i) (B₀.linkRot ρ₀ i) := by
  have := (nearM_rX hu (h.alpha i hi)).mul hu (nearM_rZ hu (h.theta i hi))
  rwa [one_mul] at this

theorem tra {i : ℕ} (hi : i < B.n) : NearV u 1 (B.off ρ i) (B.linkTra ρ i) (B₀.linkTra ρ₀ i) := by
  unfold Base.linkTra Base.off
  rw [← h.d i hi, ← h.a i hi, add_comm (|_|)]
  refine NearV.add ?_ ((nearV_self (len_x _).le).mono hu (Nat.zero_le _) le_rfl)
  have := (nearM_rX hu (h.alpha i hi)).mulVec hu (nearV_self (u := u) (len_z (Expr.eval ρ (B.dE i))).le)
  rwa [one_mul] at this

theorem frame0 {F F₀ : SX} (hF : ∀ k, 3 ≤ k → k < 6 → PairNear u (ang ρ (F.e k 0)) (ang ρ₀ (F₀.e k 0))) :
    NearM u 3 1 (SX.val ρ (rotB (getTransform F)) 3 3) (SX.val ρ₀ (rotB (getTransform F₀)) 3 3) := by
  rw [Base.val_rot_getTransform, Base.val_rot_getTransform]
  have := ((nearM_rZ hu (hF 3 (by omega) (by omega))).mul hu (nearM_rY hu (hF 4 (by omega) (by omega)))).mul hu (nearM_rX hu (hF 5 (by omega) (by omega)))
  rwa [one_mul, one_mul] at this

theorem R {i : ℕ} (hi : i ≤ B.n) : NearM u (2 * i + 3) 1 (B.rotV ρ i) (B₀.rotV ρ₀ i) := by
  induction i with
  | zero => exact h.frame0 hu h.mount
  | succ i ih =>
    have := (ih (by omega)).mul hu (h.link hu (i := i) (by omega))
    unfold Base.rotV at this ⊢
    rw [one_mul, ← Base.val_R0_succ, ← Base.val_R0_succ] at this
    exact this.mono hu (by omega) le_rfl

theorem axis {i : ℕ} (hi : i ≤ B.n) : NearV u (2 * i + 3) 1 (B.axis ρ i) (B₀.axis ρ₀ i) := by
  have := (h.R hu hi).mulVec hu nearV_e3
  rwa [one_mul] at this

theorem step {i : ℕ} (hi : i < B.n) : NearV u (2 * (i + 1) + 3) (B.off ρ i) (B.posV ρ (i + 1) - B.posV ρ i) (B₀.posV ρ₀ (i + 1) - B₀.posV ρ₀ i) := by
  have := (h.R hu hi.le).mulVec hu (h.tra hu hi)
  unfold Base.posV
  rw [Base.vec_P0_succ, Base.vec_P0_succ, add_sub_cancel_right, add_sub_cancel_right]
  rw [one_mul] at this
  exact this.mono hu (by omega) le_rfl

/-- Positions relative to an earlier frame. -/
theorem span {j i : ℕ} (hj : j ≤ i) (hi : i ≤ B.n) :
    NearV u (2 * i + 3) (∑ k ∈ Finset.Ico j i, B.off ρ k) (B.posV ρ i - B.posV ρ j) (B₀.posV ρ₀ i - B₀.posV ρ₀ j) := by
  induction i, hj using Nat.le_induction with
  | base => rw [sub_self, sub_self, Finset.Ico_self, Finset.sum_empty]; exact nearV_zero hu
  | succ i hj ih =>
    have h1 := ((ih (by omega)).mono hu (show 2 * i + 3 ≤ 2 * (i + 1) + 3 by omega) le_rfl).add (h.step hu (i := i) (by omega))
    rw [Finset.sum_Ico_succ_top hj]
    rwa [show B.posV ρ i - B.posV ρ j + (B.posV ρ (i + 1) - B.posV ρ i) = B.posV ρ (i + 1) - B.posV ρ j by abel,
      show B₀.posV ρ₀ i - B₀.posV ρ₀ j + (B₀.posV ρ₀ (i + 1) - B₀.posV ρ₀ i) = B₀.posV ρ₀ (i + 1) - B₀.posV ρ₀ j by abel] at h1

theorem base_pos : B.posV ρ 0 = B₀.posV ρ₀ 0 := by
  ext a
  have : ∀ (B : Base) (ρ : Var → ℝ), B.posV ρ 0 a = Expr.eval ρ (B.w2l.e a 0) := by
    intro B ρ
    show SX.vec ρ (traB (getTransform B.w2l)) 3 a = _
    rw [(Base.getTransform_isHomOf B.w2l).vec_tra]
    simp [SX.block]
  rw [this, this]
  exact h.mountP _ a.2

theorem P {i : ℕ} (hi : i ≤ B.n) :
    NearV u (2 * i + 3) (len (B.posV ρ 0) + ∑ k ∈ Finset.range i, B.off ρ k) (B.posV ρ i) (B₀.posV ρ₀ i) := by
  have h1 := h.span hu (Nat.zero_le i) hi
  have h2 := ((nearV_self (u := u) (le_refl (len (B.posV ρ 0)))).mono hu (Nat.zero_le (2 * i + 3)) le_rfl).add h1
  rw [Finset.range_eq_Ico]
  have e : B.posV ρ 0 + (B₀.posV ρ₀ i - B₀.posV ρ₀ 0) = B₀.posV ρ₀ i := by rw [h.base_pos hu]; abel
  rwa [e, add_sub_cancel] at h2

/-! Columns of the Jacobians -/

theorem zero_or (i : ℕ) : B.pri i = 0 ∧ B.rev i = 1 ∨ B.pri i = 1 ∧ B.rev i = 0 := by
  unfold Base.pri Base.rev; split_ifs <;> simp

theorem posCol {m j : ℕ} {L : ℝ} {O O₀ : SX} (hj : j < B.n) (hL : 0 ≤ L)
    (hO : NearV u m L (SX.vec ρ O 3 - B.posV ρ (j + 1)) (SX.vec ρ₀ O₀ 3 - B₀.posV ρ₀ (j + 1))) :
    NearV u (2 * (j + 1) + 3 + m) (1 + L) (SX.vec ρ (B.posCol O j) 3) (SX.vec ρ₀ (B₀.posCol O₀ j) 3) := by
  have h1 := h.axis hu (i := j + 1) hj
  rw [Base.vec_posCol, Base.vec_posCol, h.rev, h.pri]
  rcases h.zero_or hu j with ⟨e1, e2⟩ | ⟨e1, e2⟩
  · rw [e1, e2, zero_smul, zero_add, one_smul, zero_smul, zero_add, one_smul]
    have := h1.hat hu hO
    exact this.mono hu le_rfl (by linarith)
  · rw [e1, e2, zero_smul, add_zero, one_smul, zero_smul, add_zero, one_smul]
    exact h1.mono hu (by omega) (by linarith)

theorem orCol {j : ℕ} (hj : j < B.n) : NearV u (2 * (j + 1) + 3) 1 (SX.vec ρ (B.orCol j) 3) (SX.vec ρ₀ (B₀.orCol j) 3) := by
  have h1 := h.axis hu (i := j + 1) hj
  rw [Base.vec_orCol, Base.vec_orCol, h.rev]
  rcases h.zero_or hu j with ⟨e1, e2⟩ | ⟨e1, e2⟩
  · rwa [e2, one_smul, one_smul]
  · rw [e2, zero_smul, zero_smul]
    exact (nearV_zero hu).mono hu le_rfl zero_le_one

end Close

end

end Thunder
