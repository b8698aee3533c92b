import Verif.Model.Body
import Verif.Spec.Body
import Verif.Lemmas.Inertia
import Mathlib.Tactic.LinearCombination
import Mathlib.Tactic.FieldSimp

/-!
# Bodies and frame offsets: helper lemmas
-/

open Matrix Real

namespace Thunder

noncomputable section

/-- Real matrix and vector as matrix and vector of doubles. -/
def real3 (A : Matrix (Fin 3) (Fin 3) ℝ) : M3 := fun i j => some (A i j)
def realV {n : ℕ} (v : Fin n → ℝ) : Fin n → Num := fun i => some (v i)

/-- The matrix the code computes. -/
def codeRot (roll pitch yaw : ℝ) : Matrix (Fin 3) (Fin 3) ℝ :=
  !![cos yaw * cos pitch, cos yaw * sin pitch * sin roll - sin yaw * cos roll, cos yaw * sin pitch * cos roll - sin yaw * sin roll;
    sin yaw * cos pitch, sin yaw * sin pitch * sin roll + cos yaw * cos roll, sin yaw * sin pitch * cos roll - cos yaw * sin roll;
    -sin pitch, cos pitch * sin roll, cos pitch * cos roll]

theorem yprMat_real (roll pitch yaw : ℝ) :
    yprMat (some (cos yaw)) (some (sin yaw)) (some (cos pitch)) (some (sin pitch)) (some (cos roll)) (some (sin roll)) =
      real3 (codeRot roll pitch yaw) := by
  funext i j
  fin_cases i <;> fin_cases j <;> simp [yprMat, real3, codeRot]

theorem rpyRot_real (v : Fin 3 → ℝ) : rpyRot (realV v) = real3 (codeRot (v 0) (v 1) (v 2)) := by
  rw [← yprMat_real]; rfl

theorem isRot_axX (t : ℝ) : IsRot (Spec.axX t) := by
  have := sin_sq_add_cos_sq t
  constructor
  · ext i j; fin_cases i <;> fin_cases j <;> simp [Spec.axX, mul_apply, Fin.sum_univ_three] <;> linarith
  · simp [Spec.axX, det_fin_three]; linarith
theorem isRot_axY (t : ℝ) : IsRot (Spec.axY t) := by
  have := sin_sq_add_cos_sq t
  constructor
  · ext i j; fin_cases i <;> fin_cases j <;> simp [Spec.axY, mul_apply, Fin.sum_univ_three] <;> linarith
  · simp [Spec.axY, det_fin_three]; linarith
theorem isRot_axZ (t : ℝ) : IsRot (Spec.axZ t) := by
  have := sin_sq_add_cos_sq t
  constructor
  · ext i j; fin_cases i <;> fin_cases j <;> simp [Spec.axZ, mul_apply, Fin.sum_univ_three] <;> linarith
  · simp [Spec.axZ, det_fin_three]; linarith

theorem isRot_rpy (r p y : ℝ) : IsRot (Spec.rpy r p y) := ((isRot_axZ y).mul (isRot_axY p)).mul (isRot_axX r)

/-- The code's matrix differs from the rotation in one entry. -/
theorem codeRot_eq (r p y : ℝ) : codeRot r p y = Spec.rpy r p y - !![0, 0, 2 * (sin y * sin r); 0, 0, 0; 0, 0, 0] := by
  ext i j
  fin_cases i <;> fin_cases j <;>
    simp [codeRot, Spec.rpy, Spec.axX, Spec.axY, Spec.axZ] <;> ring

theorem codeRot_of_zero {r p y : ℝ} (h : sin y * sin r = 0) : codeRot r p y = Spec.rpy r p y := by
  rw [codeRot_eq, h]
  ext i j
  fin_cases i <;> fin_cases j <;> simp

theorem isRot_codeRot_iff (r p y : ℝ) : IsRot (codeRot r p y) ↔ sin y * sin r = 0 := by
  constructor
  · intro h
    have hy := sin_sq_add_cos_sq y
    have hp := sin_sq_add_cos_sq p
    have hr := sin_sq_add_cos_sq r
    have h1 := congrFun (congrFun h.orth 2) 2
    have h2 := h.det
    simp [codeRot, mul_apply, Fin.sum_univ_three] at h1
    simp [codeRot, det_fin_three] at h2
    have hab : (sin y * sin r) * (cos y * sin p * cos r) = 0 := by
      linear_combination (-1 / 4) * h1 + (1 / 4) * (sin p ^ 2 * cos r ^ 2) * hy + (1 / 4) * sin r ^ 2 * hy +
        (1 / 4) * cos r ^ 2 * hp + (1 / 4) * hr
    have hd : (sin y * sin r) * (sin y * sin r + cos y * sin p * cos r) = 0 := by
      linear_combination (-1 / 2) * h2 + (1 / 2) * (cos p ^ 2 * cos r ^ 2 + cos p ^ 2 * sin r ^ 2) * hy +
        (1 / 2) * sin p ^ 2 * cos r ^ 2 * hy + (1 / 2) * cos r ^ 2 * hp - sin y ^ 2 * sin r ^ 2 * hp +
        (1 / 2) * sin r ^ 2 * sin p ^ 2 * hy + (1 / 2) * sin r ^ 2 * hp + (1 / 2) * hr
    have : (sin y * sin r) * (sin y * sin r) = 0 := by linear_combination hd - hab
    exact mul_self_eq_zero.mp this
  · intro h
    rw [codeRot_of_zero h]
    exact isRot_rpy r p y

theorem mul3_real (A B : Matrix (Fin 3) (Fin 3) ℝ) : mul3 (real3 A) (real3 B) = real3 (A * B) := by
  funext i j; simp [mul3, real3, mul_apply, Fin.sum_univ_three]
theorem add3_real (A B : Matrix (Fin 3) (Fin 3) ℝ) : add3 (real3 A) (real3 B) = real3 (A + B) := by
  funext i j; simp [add3, real3]
theorem scale3_real (m : ℝ) (A : Matrix (Fin 3) (Fin 3) ℝ) : scale3 (some m) (real3 A) = real3 (m • A) := by
  funext i j; simp [scale3, real3]
theorem tr3_real (A : Matrix (Fin 3) (Fin 3) ℝ) : tr3 (real3 A) = real3 Aᵀ := rfl
theorem mulV3_real (A : Matrix (Fin 3) (Fin 3) ℝ) (v : Fin 3 → ℝ) : mulV3 (real3 A) (realV v) = realV (A *ᵥ v) := by
  funext i; simp [mulV3, real3, realV, mulVec, dotProduct, Fin.sum_univ_three]
theorem hatN_real (v : Fin 3 → ℝ) : hatN (realV v) = real3 (hat v) := by
  funext i j; fin_cases i <;> fin_cases j <;> simp [hatN, real3, realV, hat]
theorem createI_real (p : Fin 6 → ℝ) : createI (realV p) = real3 (Spec.symm3 p) := by
  funext i j; fin_cases i <;> fin_cases j <;> simp [createI, real3, realV, Spec.symm3]

/-- Upper triangle of a real matrix. -/
def tri (A : Matrix (Fin 3) (Fin 3) ℝ) : Fin 6 → ℝ := ![A 0 0, A 0 1, A 0 2, A 1 1, A 1 2, A 2 2]

theorem parI6_real (A : Matrix (Fin 3) (Fin 3) ℝ) : parI6 (real3 A) = realV (tri A) := by
  funext i; fin_cases i <;> simp [parI6, real3, realV, tri]

theorem symm3_tri {A : Matrix (Fin 3) (Fin 3) ℝ} (h : Aᵀ = A) : Spec.symm3 (tri A) = A := by
  have h' : ∀ i j, A j i = A i j := fun i j => congrFun (congrFun h i) j
  ext i j
  fin_cases i <;> fin_cases j <;> simp [Spec.symm3, tri]
  · exact h' 1 0
  · exact h' 2 0
  · exact h' 2 1

theorem symm3_transpose (p : Fin 6 → ℝ) : (Spec.symm3 p)ᵀ = Spec.symm3 p := by
  ext i j; fin_cases i <;> fin_cases j <;> simp [Spec.symm3]

theorem conj_symm (Q A : Matrix (Fin 3) (Fin 3) ℝ) (h : Aᵀ = A) : (Q * A * Qᵀ)ᵀ = Q * A * Qᵀ := by
  simp [transpose_mul, h, mul_assoc]

/-- Centre of mass of two bodies. -/
def comOf (m1 m2 : ℝ) (c1 c2 : Fin 3 → ℝ) : Fin 3 → ℝ := fun k => (m1 * c1 k + m2 * c2 k) / (m1 + m2)
/-- Inertia of two bodies at the common centre of mass. -/
def inertiaOf (m1 m2 : ℝ) (c1 c2 : Fin 3 → ℝ) (I1 I2 : Matrix (Fin 3) (Fin 3) ℝ) : Matrix (Fin 3) (Fin 3) ℝ :=
  let c := comOf m1 m2 c1 c2
  I1 + m1 • hat (fun k => c k - c1 k) * (hat fun k => c k - c1 k)ᵀ + I2 + m2 • hat (fun k => c k - c2 k) * (hat fun k => c k - c2 k)ᵀ

theorem originInertia_inertiaOf {m1 m2 : ℝ} (h : m1 + m2 ≠ 0) (c1 c2 : Fin 3 → ℝ) (I1 I2 : Matrix (Fin 3) (Fin 3) ℝ) :
    Spec.originInertia (m1 + m2) (comOf m1 m2 c1 c2) (inertiaOf m1 m2 c1 c2 I1 I2) =
      Spec.originInertia m1 c1 I1 + Spec.originInertia m2 c2 I2 := by
  have hc : ∀ k, (m1 + m2) * comOf m1 m2 c1 c2 k = m1 * c1 k + m2 * c2 k := fun k => by
    rw [comOf, mul_div_cancel₀ _ h]
  rw [inertiaOf]
  generalize comOf m1 m2 c1 c2 = c at hc ⊢
  have h0 := hc 0
  have h1 := hc 1
  have h2 := hc 2
  ext i j
  fin_cases i <;> fin_cases j <;> simp [Spec.originInertia, hat, mul_apply, vecMul, dotProduct, Fin.sum_univ_three]
  · linear_combination (2 * c 1) * h1 + (2 * c 2) * h2
  · linear_combination (-c 0) * h1 - (c 1) * h0
  · linear_combination (-c 0) * h2 - (c 2) * h0
  · linear_combination (-c 0) * h1 - (c 1) * h0
  · linear_combination (2 * c 0) * h0 + (2 * c 2) * h2
  · linear_combination (-c 1) * h2 - (c 2) * h1
  · linear_combination (-c 0) * h2 - (c 2) * h0
  · linear_combination (-c 1) * h2 - (c 2) * h1
  · linear_combination (2 * c 0) * h0 + (2 * c 1) * h1

theorem inertiaOf_symm (m1 m2 : ℝ) (c1 c2 : Fin 3 → ℝ) {I1 I2 : Matrix (Fin 3) (Fin 3) ℝ} (h1 : I1ᵀ = I1) (h2 : I2ᵀ = I2) :
    (inertiaOf m1 m2 c1 c2 I1 I2)ᵀ = inertiaOf m1 m2 c1 c2 I1 I2 := by
  simp [inertiaOf, transpose_mul, h1, h2]

/-- A body with real mass, centre of mass and inertia; the other fields are arbitrary. -/
def LinkProp.Is (b : LinkProp) (m : ℝ) (c : Fin 3 → ℝ) (I : Fin 6 → ℝ) : Prop :=
  b.mass = some m ∧ b.xyz = realV c ∧ b.parI = realV I

theorem mergeBody_is {b1 b2 : LinkProp} {m1 m2 : ℝ} {c1 c2 : Fin 3 → ℝ} {I1 I2 : Fin 6 → ℝ} (h1 : b1.Is m1 c1 I1)
    (h2 : b2.Is m2 c2 I2) (h : m1 + m2 ≠ 0) (nb : LinkProp) :
    (mergeBody b1 b2 nb).Is (m1 + m2) (comOf m1 m2 c1 c2) (tri (inertiaOf m1 m2 c1 c2 (Spec.symm3 I1) (Spec.symm3 I2))) := by
  obtain ⟨a1, a2, a3⟩ := h1
  obtain ⟨d1, d2, d3⟩ := h2
  have hc : (fun k => Num.div (Num.add (Num.mul b1.mass (b1.xyz k)) (Num.mul b2.mass (b2.xyz k))) (Num.add b1.mass b2.mass)) =
      realV (comOf m1 m2 c1 c2) := by
    funext k; simp [a1, a2, d1, d2, realV, Num.div_some h, comOf]
  have hd : ∀ c' : Fin 3 → ℝ, (fun k => Num.sub (realV (comOf m1 m2 c1 c2) k) (realV c' k)) =
      realV fun k => comOf m1 m2 c1 c2 k - c' k := fun c' => rfl
  refine ⟨by simp [mergeBody, a1, d1], hc, ?_⟩
  have hk : ∀ k, Num.div (Num.add (Num.mul (some m1) (realV c1 k)) (Num.mul (some m2) (realV c2 k)))
      (Num.add (some m1) (some m2)) = realV (comOf m1 m2 c1 c2) k := fun k => by
    simp [realV, Num.div_some h, comOf]
  simp only [mergeBody, a1, a2, a3, d1, d2, d3, hk, hd, hatN_real, createI_real, scale3_real, tr3_real, mul3_real, add3_real,
    parI6_real, inertiaOf]

/-- Mass, centre of mass and inertia are determined by the linear parameters when the mass is not zero. -/
theorem linPar_inj {m m' : ℝ} {c c' : Fin 3 → ℝ} {I I' : Fin 6 → ℝ} (hm : m ≠ 0)
    (h : ∀ k, Spec.linPar m c (Spec.symm3 I) k = Spec.linPar m' c' (Spec.symm3 I') k) : m = m' ∧ c = c' ∧ I = I' := by
  have h0 : m = m' := h 0
  subst h0
  have hc : c = c' := by
    funext k
    have h1 : m * c 0 = m * c' 0 := h 1
    have h2 : m * c 1 = m * c' 1 := h 2
    have h3 : m * c 2 = m * c' 2 := h 3
    fin_cases k
    exacts [mul_left_cancel₀ hm h1, mul_left_cancel₀ hm h2, mul_left_cancel₀ hm h3]
  subst hc
  refine ⟨rfl, rfl, ?_⟩
  funext k
  fin_cases k
  · have := h 4; simpa [Spec.linPar, Spec.originInertia, Spec.symm3] using this
  · have := h 5; simpa [Spec.linPar, Spec.originInertia, Spec.symm3] using this
  · have := h 6; simpa [Spec.linPar, Spec.originInertia, Spec.symm3] using this
  · have := h 7; simpa [Spec.linPar, Spec.originInertia, Spec.symm3] using this
  · have := h 8; simpa [Spec.linPar, Spec.originInertia, Spec.symm3] using this
  · have := h 9; simpa [Spec.linPar, Spec.originInertia, Spec.symm3] using this

/-- Same mass, centre of mass and inertia. -/
def LinkProp.Same (b b' : LinkProp) : Prop := b.mass = b'.mass ∧ b.xyz = b'.xyz ∧ b.parI = b'.parI

theorem LinkProp.Is.same {b b' : LinkProp} {m c I m' c' I'} (h : b.Is m c I) (h' : b'.Is m' c' I') (hm : m ≠ 0)
    (e : ∀ k, Spec.linPar m c (Spec.symm3 I) k = Spec.linPar m' c' (Spec.symm3 I') k) : b.Same b' := by
  obtain ⟨rfl, rfl, rfl⟩ := linPar_inj hm e
  exact ⟨h.1.trans h'.1.symm, h.2.1.trans h'.2.1.symm, h.2.2.trans h'.2.2.symm⟩

end

end Thunder
