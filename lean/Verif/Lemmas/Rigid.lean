import Verif.Spec.Remount
import Verif.Lemmas.Energy

/-!
# Rigid motions and geometric Jacobians
-/

namespace Thunder

noncomputable section

open Spec Matrix

variable {T D : Matrix (Fin 4) (Fin 4) ℝ}

theorem rot_mul (hT : IsRigid T) : rot (D * T) = rot D * rot T := by
  ext i j
  have h := hT.bottom j.castSucc
  rw [if_neg (by intro e; have := congrArg Fin.val e; simp at this; omega)] at h
  simp only [rot, submatrix_apply, mul_apply, Fin.sum_univ_castSucc (n := 3)]
  rw [show (Fin.last 3) = 3 from rfl, h, mul_zero, add_zero]

theorem pos_mul (hT : IsRigid T) : pos (D * T) = pos D + rot D *ᵥ pos T := by
  ext i
  have h := hT.bottom 3
  rw [if_pos rfl] at h
  simp only [pos, mul_apply, Fin.sum_univ_castSucc (n := 3), Pi.add_apply, mulVec, dotProduct, rot, submatrix_apply]
  rw [show (Fin.last 3) = 3 from rfl, h, mul_one, add_comm]

theorem point_mul (hT : IsRigid T) (p : Fin 3 → ℝ) : point (D * T) p = pos D + rot D *ᵥ point T p := by
  rw [point, point, rot_mul hT, pos_mul hT, mulVec_add, mulVec_mulVec, add_assoc]

theorem Spec.IsRigid.mul (hD : IsRigid D) (hT : IsRigid T) : IsRigid (D * T) where
  rot := by rw [rot_mul hT]; exact hD.rot.mul hT.rot
  bottom j := by
    rw [mul_apply, Fin.sum_univ_four, hD.bottom, hD.bottom, hD.bottom, hD.bottom]
    simpa using hT.bottom j

/-- A rigid motion is given by its rotation and its translation. -/
theorem rigid_ext (hD : IsRigid D) (hT : IsRigid T) (h1 : rot D = rot T) (h2 : pos D = pos T) : D = T := by
  ext i j
  induction i using Fin.lastCases with
  | last => rw [show Fin.last 3 = 3 from rfl, hD.bottom, hT.bottom]
  | cast i =>
    induction j using Fin.lastCases with
    | last => exact congrFun h2 i
    | cast j => exact congrFun (congrFun h1 i) j

/-- The rigid motion with a given rotation and translation. -/
def rigidOf (R : Matrix (Fin 3) (Fin 3) ℝ) (p : Fin 3 → ℝ) : Matrix (Fin 4) (Fin 4) ℝ :=
  !![R 0 0, R 0 1, R 0 2, p 0; R 1 0, R 1 1, R 1 2, p 1; R 2 0, R 2 1, R 2 2, p 2; 0, 0, 0, 1]

theorem rot_rigidOf (R : Matrix (Fin 3) (Fin 3) ℝ) (p : Fin 3 → ℝ) : rot (rigidOf R p) = R := by
  ext i j; fin_cases i <;> fin_cases j <;> rfl

theorem pos_rigidOf (R : Matrix (Fin 3) (Fin 3) ℝ) (p : Fin 3 → ℝ) : pos (rigidOf R p) = p := by
  ext i; fin_cases i <;> rfl

theorem isRigid_rigidOf {R : Matrix (Fin 3) (Fin 3) ℝ} (h : IsRot R) (p : Fin 3 → ℝ) : IsRigid (rigidOf R p) where
  rot := by rwa [rot_rigidOf]
  bottom j := by fin_cases j <;> simp [rigidOf]

theorem isRot_flip {R : Matrix (Fin 3) (Fin 3) ℝ} (h : IsRot R) : IsRot Rᵀ where
  orth := by rw [transpose_transpose]; exact h.orth'
  det := by rw [det_transpose]; exact h.det

/-- From one placement to another, on the left. -/
theorem exists_left (hD : IsRigid D) (hT : IsRigid T) : ∃ E, IsRigid E ∧ D = E * T := by
  have hr : IsRot (rot D * (rot T)ᵀ) := hD.rot.mul (isRot_flip hT.rot)
  refine ⟨rigidOf (rot D * (rot T)ᵀ) (pos D - (rot D * (rot T)ᵀ) *ᵥ pos T), isRigid_rigidOf hr _, rigid_ext hD ((isRigid_rigidOf hr _).mul hT) ?_ ?_⟩
  · rw [rot_mul hT, rot_rigidOf, mul_assoc, hT.rot.orth, mul_one]
  · rw [pos_mul hT, rot_rigidOf, pos_rigidOf, sub_add_cancel]

/-- From one placement to another, on the right. -/
theorem exists_right (hD : IsRigid D) (hT : IsRigid T) : ∃ E, IsRigid E ∧ D = T * E := by
  have hr : IsRot ((rot T)ᵀ * rot D) := (isRot_flip hT.rot).mul hD.rot
  have hE := isRigid_rigidOf hr ((rot T)ᵀ *ᵥ (pos D - pos T))
  refine ⟨_, hE, rigid_ext hD (hT.mul hE) ?_ ?_⟩
  · rw [rot_mul hE, rot_rigidOf, ← mul_assoc, hT.rot.orth', one_mul]
  · rw [pos_mul hE, pos_rigidOf, mulVec_mulVec, hT.rot.orth', one_mulVec, add_sub_cancel]

/-! ## Turning twists -/

section

variable {R S : Matrix (Fin 3) (Fin 3) ℝ} {n : ℕ} {J : Matrix (Fin 6) (Fin n) ℝ}

theorem lin_turned : lin (turned R * J) = R * lin J := by
  ext a j
  show ∑ k, turned R (Fin.castLE (by omega) a) k * J k j = ∑ k, R a k * J (Fin.castLE (by omega) k) j
  rw [Fin.sum_univ_six, Fin.sum_univ_three]
  fin_cases a <;> simp [turned]

theorem ang_turned : angRows (turned R * J) = R * angRows J := by
  ext a j
  show ∑ k, turned R (Fin.natAdd 3 a) k * J k j = ∑ k, R a k * J (Fin.natAdd 3 k) j
  rw [Fin.sum_univ_six, Fin.sum_univ_three]
  fin_cases a <;> simp [turned]

theorem ext_rows {J K : Matrix (Fin 6) (Fin n) ℝ} (h1 : lin J = lin K) (h2 : angRows J = angRows K) : J = K := by
  ext a j
  by_cases ha : (a : ℕ) < 3
  · exact congrFun (congrFun h1 ⟨a, ha⟩) j
  · have := congrFun (congrFun h2 ⟨a - 3, by omega⟩) j
    have e : (Fin.natAdd 3 (⟨a - 3, by omega⟩ : Fin 3) : Fin 6) = a := Fin.ext (by simp; omega)
    simp only [angRows, submatrix_apply, e, id] at this
    exact this

theorem turned_transpose : (turned R)ᵀ = turned Rᵀ := by
  ext a b; fin_cases a <;> fin_cases b <;> rfl

theorem turned_one : turned 1 = 1 := by
  ext a b; fin_cases a <;> fin_cases b <;> simp [turned]

theorem turned_mul : turned R * turned S = turned (R * S) :=
  ext_rows (by rw [lin_turned]; ext a j; fin_cases a <;> fin_cases j <;> simp [lin, turned, mul_apply, Fin.sum_univ_three])
    (by rw [ang_turned]; ext a j; fin_cases a <;> fin_cases j <;> simp [angRows, turned, mul_apply, Fin.sum_univ_three])

end

/-! ## Jacobians -/

section

variable {n : ℕ} {T : (Fin n → ℝ) → Matrix (Fin 4) (Fin 4) ℝ} {q : Fin n → ℝ} {D : Matrix (Fin 4) (Fin 4) ℝ} {p : Fin 3 → ℝ}

theorem lin_jacobianAt (a : Fin 3) (j : Fin n) : lin (jacobianAt T p q) a j = deriv (fun t => point (T (Function.update q j t)) p a) (q j) := by
  unfold lin jacobianAt
  rw [submatrix_apply, of_apply, dif_pos (show ((Fin.castLE (by omega) a : Fin 6) : ℕ) < 3 from a.2)]
  rfl

theorem ang_jacobianAt (a : Fin 3) (j : Fin n) : angRows (jacobianAt T p q) a j =
    vee (Matrix.of (fun x y => deriv (fun t => rot (T (Function.update q j t)) x y) (q j)) * (rot (T q))ᵀ) a := by
  unfold angRows jacobianAt
  rw [submatrix_apply, of_apply, dif_neg (by simp)]
  congr 1
  exact Fin.ext (by simp)

/-- A rigid body turns with the angular velocity `w j` when the coordinate `j` moves with unit velocity. -/
structure Turns (T : (Fin n → ℝ) → Matrix (Fin 4) (Fin 4) ℝ) (q : Fin n → ℝ) (w : Fin n → Fin 3 → ℝ) : Prop where
  rigid : ∀ q, IsRigid (T q)
  der : ∀ j a b, HasDerivAt (fun t => rot (T (Function.update q j t)) a b) ((hat (w j) * rot (T q)) a b) (q j)

theorem Turns.ang {w : Fin n → Fin 3 → ℝ} (h : Turns T q w) (a : Fin 3) (j : Fin n) : angRows (jacobianAt T p q) a j = w j a := by
  rw [ang_jacobianAt]
  have e : Matrix.of (fun x y => deriv (fun t => rot (T (Function.update q j t)) x y) (q j)) = hat (w j) * rot (T q) := by
    ext x y; exact (h.der j x y).deriv
  rw [e, mul_assoc, (h.rigid q).rot.orth', mul_one, vee_hat]

theorem Turns.left {w : Fin n → Fin 3 → ℝ} (h : Turns T q w) (hD : IsRigid D) : Turns (fun q => D * T q) q fun j => rot D *ᵥ w j where
  rigid q := hD.mul (h.rigid q)
  der j a b := by
    simp only [rot_mul (h.rigid _)]
    rw [← mul_assoc, ← hD.rot.mul_hat, mul_assoc]
    simp only [mul_apply (M := rot D)]
    exact HasDerivAt.fun_sum fun k _ => (h.der j k b).const_mul _

theorem Turns.right {w : Fin n → Fin 3 → ℝ} (h : Turns T q w) (hD : IsRigid D) : Turns (fun q => T q * D) q w where
  rigid q := (h.rigid q).mul hD
  der j a b := by
    simp only [rot_mul hD]
    rw [← mul_assoc]
    simp only [mul_apply (N := rot D)]
    exact HasDerivAt.fun_sum fun k _ => (h.der j a k).mul_const _

/-- Moving the body by a fixed rigid motion turns its Jacobian. -/
theorem jacobian_left {w : Fin n → Fin 3 → ℝ} (h : Turns T q w) (hD : IsRigid D)
    (hp : ∀ j a, DifferentiableAt ℝ (fun t => point (T (Function.update q j t)) p a) (q j)) :
    jacobianAt (fun q => D * T q) p q = turned (rot D) * jacobianAt T p q := by
  refine ext_rows ?_ ?_
  · rw [lin_turned]
    ext a j
    rw [lin_jacobianAt, mul_apply]
    simp only [lin_jacobianAt, point_mul (h.rigid _), Pi.add_apply, mulVec, dotProduct]
    exact ((HasDerivAt.fun_sum fun k _ => ((hp j k).hasDerivAt.const_mul (rot D a k))).const_add _).deriv
  · rw [ang_turned]
    ext a j
    rw [(h.left hD).ang, mul_apply]
    simp only [h.ang]
    rfl

/-- A frame fixed to the body moves like the point that is its origin. -/
theorem jacobian_right {w : Fin n → Fin 3 → ℝ} (h : Turns T q w) (hD : IsRigid D) :
    jacobianAt (fun q => T q * D) p q = jacobianAt T (point D p) q := by
  refine ext_rows ?_ ?_
  · ext a j
    simp only [lin_jacobianAt, point_mul hD]
    rfl
  · ext a j
    rw [(h.right hD).ang, h.ang]

/-- The Jacobians at two points of the body. -/
theorem jacobian_point {w : Fin n → Fin 3 → ℝ} (h : Turns T q w) (hp : ∀ j a, DifferentiableAt ℝ (fun t => pos (T (Function.update q j t)) a) (q j)) :
    lin (jacobianAt T p q) = lin (jacobianOf T q) - hat (rot (T q) *ᵥ p) * angRows (jacobianOf T q) := by
  ext a j
  rw [lin_jacobianAt, Matrix.sub_apply, jacobianOf, lin_jacobianAt]
  have e0 : (fun t => point (T (Function.update q j t)) 0 a) = fun t => pos (T (Function.update q j t)) a := by
    funext t; rw [point, mulVec_zero, add_zero]
  rw [e0, mul_apply]
  simp only [h.ang]
  have h1 : HasDerivAt (fun t => point (T (Function.update q j t)) p a)
      (deriv (fun t => pos (T (Function.update q j t)) a) (q j) + ∑ k, (hat (w j) * rot (T q)) a k * p k) (q j) :=
    (hp j a).hasDerivAt.add (HasDerivAt.fun_sum (u := Finset.univ) (A := fun k t => rot (T (Function.update q j t)) a k * p k)
      fun k _ => (h.der j a k).mul_const _)
  rw [h1.deriv, sub_eq_add_neg]
  congr 1
  have h2 := congrFun (hat_anticomm (w j) (rot (T q) *ᵥ p)) a
  rw [mulVec_mulVec] at h2
  exact h2

end

end

end Thunder
