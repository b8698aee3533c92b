import Verif.Lemmas.Body
import Mathlib.LinearAlgebra.Matrix.PosDef
import Mathlib.Algebra.Order.Star.Real

/-!
# Rotations and bodies: C50, C51, C52

`real3 R` and `realV v` are the matrix `R` and the vector `v` of reals held in doubles.  C50 is false of the code: entry `(0,2)` has a
wrong sign, so the result is a rotation exactly when `sin yaw · sin roll = 0`.
-/

open Matrix Real

namespace Thunder

/-- C50, the part that holds: when `sin yaw · sin roll = 0`, `rpyRot` returns the roll-pitch-yaw rotation.
Full claim (false, see `C50_fails`): the same for every `r p y`. -/
theorem C50_rpyRot_partial (r p y : ℝ) (h : sin y * sin r = 0) :
    rpyRot (realV ![r, p, y]) = real3 (Spec.rpy r p y) ∧ IsRot (Spec.rpy r p y) :=
  ⟨by rw [rpyRot_real, ← codeRot_of_zero h]; rfl, isRot_rpy r p y⟩

/-- C50 is false for every angle triple with `sin yaw · sin roll ≠ 0`: the matrix `rpyRot` returns is no rotation. -/
theorem C50_rpyRot_iff (r p y : ℝ) :
    (∃ R, rpyRot (realV ![r, p, y]) = real3 R ∧ IsRot R) ↔ sin y * sin r = 0 := by
  have e : rpyRot (realV ![r, p, y]) = real3 (codeRot r p y) := rpyRot_real _
  constructor
  · rintro ⟨R, h, hR⟩
    have : R = codeRot r p y := by
      ext i j
      have := congrFun (congrFun (h.symm.trans e) i) j
      simpa [real3] using this
    rw [this] at hR
    exact (isRot_codeRot_iff r p y).mp hR
  · intro h
    exact ⟨_, e, (isRot_codeRot_iff r p y).mpr h⟩

/-- The wrapper's `rpyRot` is the same function. -/
theorem C50_rpyRotW_iff (r p y : ℝ) :
    (∃ R, rpyRotW (realV ![r, p, y]) = real3 R ∧ IsRot R) ↔ sin y * sin r = 0 := C50_rpyRot_iff r p y

/-- `FrameOffset::get_rotation` (angles in the order yaw, pitch, roll). -/
theorem C50_rotation_iff (r p y : ℝ) (t g : List Num) :
    (∃ R, FrameOffset.rotation ⟨[some y, some p, some r], t, g⟩ = real3 R ∧ IsRot R) ↔ sin y * sin r = 0 :=
  C50_rpyRot_iff r p y

/-- `FrameOffset::get_transform`: rotation block, translation column and last row. -/
theorem C50_transform_partial (r p y : ℝ) (t : Fin 3 → ℝ) (g : List Num) (h : sin y * sin r = 0) :
    FrameOffset.transform ⟨[some y, some p, some r], [some (t 0), some (t 1), some (t 2)], g⟩ =
      fun i j => some (!![Spec.rpy r p y 0 0, Spec.rpy r p y 0 1, Spec.rpy r p y 0 2, t 0;
        Spec.rpy r p y 1 0, Spec.rpy r p y 1 1, Spec.rpy r p y 1 2, t 1;
        Spec.rpy r p y 2 0, Spec.rpy r p y 2 1, Spec.rpy r p y 2 2, t 2; 0, 0, 0, 1] i j) := by
  have e : FrameOffset.rotation ⟨[some y, some p, some r], [some (t 0), some (t 1), some (t 2)], g⟩ = real3 (Spec.rpy r p y) :=
    (C50_rpyRot_partial r p y h).1
  funext i j
  simp only [FrameOffset.transform, e]
  fin_cases i <;> fin_cases j <;> simp [real3, FrameOffset.at']

/-- C50 is false of the code: at roll = yaw = π/2, pitch = 0 the result has determinant −1. -/
theorem C50_fails : ∃ r p y : ℝ, ∃ R, rpyRot (realV ![r, p, y]) = real3 R ∧ R.det = -1 :=
  ⟨π / 2, 0, π / 2, codeRot (π / 2) 0 (π / 2), rpyRot_real _, by simp [codeRot, det_fin_three]⟩

example : ∃ R, rpyRot (realV ![0, 1, 2]) = real3 R ∧ IsRot R := (C50_rpyRot_iff 0 1 2).mpr (by simp)

/-! ## C51 -/

/-- C51: mass, first moment of mass and inertia about the frame origin of the merged body are the sums of those of the parts. -/
theorem C51_additive {b1 b2 : LinkProp} {m1 m2 : ℝ} {c1 c2 : Fin 3 → ℝ} {I1 I2 : Fin 6 → ℝ} (h1 : b1.Is m1 c1 I1)
    (h2 : b2.Is m2 c2 I2) (h : m1 + m2 ≠ 0) (nb : LinkProp) :
    ∃ m c I, (mergeBody b1 b2 nb).Is m c I ∧ ∀ k, Spec.linPar m c (Spec.symm3 I) k =
      Spec.linPar m1 c1 (Spec.symm3 I1) k + Spec.linPar m2 c2 (Spec.symm3 I2) k := by
  refine ⟨_, _, _, mergeBody_is h1 h2 h nb, ?_⟩
  rw [symm3_tri (inertiaOf_symm m1 m2 c1 c2 (symm3_transpose I1) (symm3_transpose I2))]
  have ho := originInertia_inertiaOf h c1 c2 (Spec.symm3 I1) (Spec.symm3 I2)
  have hc : ∀ k, (m1 + m2) * comOf m1 m2 c1 c2 k = m1 * c1 k + m2 * c2 k := fun k => by rw [comOf, mul_div_cancel₀ _ h]
  intro k
  rcases k with _ | _ | _ | _ | _ | _ | _ | _ | _ | _ | k <;> simp [Spec.linPar, ho, hc]

/-- C51: merging is commutative. -/
theorem C51_comm {b1 b2 : LinkProp} {m1 m2 : ℝ} {c1 c2 : Fin 3 → ℝ} {I1 I2 : Fin 6 → ℝ} (h1 : b1.Is m1 c1 I1)
    (h2 : b2.Is m2 c2 I2) (h : m1 + m2 ≠ 0) (nb nb' : LinkProp) : (mergeBody b1 b2 nb).Same (mergeBody b2 b1 nb') := by
  obtain ⟨m, c, I, e, l⟩ := C51_additive h1 h2 h nb
  obtain ⟨m', c', I', e', l'⟩ := C51_additive h2 h1 (by rwa [add_comm]) nb'
  have hm : m = m1 + m2 := l 0
  exact e.same e' (hm ▸ h) fun k => by rw [l, l', add_comm]

/-- C51: merging is associative. -/
theorem C51_assoc {b1 b2 b3 : LinkProp} {m1 m2 m3 : ℝ} {c1 c2 c3 : Fin 3 → ℝ} {I1 I2 I3 : Fin 6 → ℝ} (h1 : b1.Is m1 c1 I1)
    (h2 : b2.Is m2 c2 I2) (h3 : b3.Is m3 c3 I3) (h12 : m1 + m2 ≠ 0) (h23 : m2 + m3 ≠ 0) (h : m1 + m2 + m3 ≠ 0)
    (n1 n2 n3 n4 : LinkProp) :
    (mergeBody (mergeBody b1 b2 n1) b3 n2).Same (mergeBody b1 (mergeBody b2 b3 n3) n4) := by
  obtain ⟨m, c, I, e, l⟩ := C51_additive h1 h2 h12 n1
  obtain ⟨m', c', I', e', l'⟩ := C51_additive h2 h3 h23 n3
  have hm : m = m1 + m2 := l 0
  have hm' : m' = m2 + m3 := l' 0
  obtain ⟨a, d, J, f, k⟩ := C51_additive e h3 (hm ▸ h) n2
  obtain ⟨a', d', J', f', k'⟩ := C51_additive h1 e' (by rw [hm', ← add_assoc]; exact h) n4
  have ha : a = m + m3 := k 0
  exact f.same f' (by rw [ha, hm]; exact h) fun j => by rw [k, k', l, l', add_assoc]

/-- C51: with total mass zero the centre of mass of the merged body is a division by zero. -/
theorem C51_zero_mass {b1 b2 : LinkProp} {m1 m2 : ℝ} {c1 c2 : Fin 3 → ℝ} {I1 I2 : Fin 6 → ℝ} (h1 : b1.Is m1 c1 I1)
    (h2 : b2.Is m2 c2 I2) (h : m1 + m2 = 0) (nb : LinkProp) (k : Fin 3) : (mergeBody b1 b2 nb).xyz k = none := by
  simp [mergeBody, h1.1, h2.1, h]

/-- Two unit point masses at `(1,0,0)` and `(-1,0,0)`: mass 2, centre of mass at the origin, `Izz = 2`. -/
example : (mergeBody ⟨"a", some 1, realV 0, realV ![1, 0, 0], realV 0, []⟩ ⟨"b", some 1, realV 0, realV ![-1, 0, 0], realV 0, []⟩
    ⟨"", none, fun _ => none, fun _ => none, realV 0, []⟩).parI 5 = some 2 := by
  have := (mergeBody_is (b1 := ⟨"a", some 1, realV 0, realV ![1, 0, 0], realV 0, []⟩)
    (b2 := ⟨"b", some 1, realV 0, realV ![-1, 0, 0], realV 0, []⟩) ⟨rfl, rfl, rfl⟩ ⟨rfl, rfl, rfl⟩ (by norm_num)
    ⟨"", none, fun _ => none, fun _ => none, realV 0, []⟩).2.2
  rw [this]
  change some (inertiaOf 1 1 ![1, 0, 0] ![-1, 0, 0] (Spec.symm3 0) (Spec.symm3 0) 2 2) = some 2
  simp [inertiaOf, comOf, Spec.symm3, hat]
  norm_num [vecHead, vecTail, vecMul, dotProduct, Fin.sum_univ_three]
  change -(-1 : ℝ) + 0 * 0 + (1 + 0 * 0) = 2
  norm_num

/-! ## C52 -/

/-- C52: mass and name are copied, the centre of mass is `d + R·c`, the inertia is conjugated by `R·Q`, where `R` and `Q` are the matrices
`rpyRot` returns for the frame and for the body; all of it for every angle triple. -/
theorem C52_frame (d ang rpy c : Fin 3 → ℝ) (m : ℝ) (I : Fin 6 → ℝ) (u body : LinkProp) (hu : u.Is m c I) (hr : u.rpy = realV rpy)
    (R Q : Matrix (Fin 3) (Fin 3) ℝ) (hR : rpyRot (realV ang) = real3 R) (hQ : rpyRot (realV rpy) = real3 Q) :
    ∃ J, (transformBody (realV d) (realV ang) u body).Is m (d + R *ᵥ c) J ∧
      Spec.symm3 J = (R * Q) * Spec.symm3 I * (R * Q)ᵀ ∧ (transformBody (realV d) (realV ang) u body).name = u.name := by
  refine ⟨tri ((R * Q) * Spec.symm3 I * (R * Q)ᵀ), ⟨hu.1, ?_, ?_⟩, symm3_tri (conj_symm _ _ (symm3_transpose I)), rfl⟩
  · funext k
    simp only [transformBody, hR, hu.2.1, mulV3_real]
    rfl
  · simp only [transformBody, hR, hr, hQ, hu.2.2, createI_real, tr3_real, mul3_real, parI6_real]

/-- C52: a positive semidefinite inertia stays positive semidefinite, for every angle triple. -/
theorem C52_psd (d ang rpy c : Fin 3 → ℝ) (m : ℝ) (I : Fin 6 → ℝ) (u body : LinkProp) (hu : u.Is m c I) (hr : u.rpy = realV rpy)
    (hI : (Spec.symm3 I).PosSemidef) :
    ∃ c' J, (transformBody (realV d) (realV ang) u body).Is m c' J ∧ (Spec.symm3 J).PosSemidef := by
  obtain ⟨J, h, e, -⟩ := C52_frame d ang rpy c m I u body hu hr _ _ (rpyRot_real _) (rpyRot_real _)
  refine ⟨_, J, h, ?_⟩
  rw [e]
  exact hI.mul_mul_conjTranspose_same _

/-- C52, the part that holds: for angle triples with `sin yaw · sin roll = 0` the transform is the change of frame by the rotations
`R` (frame) and `Q` (body), and it keeps the trace of the inertia.  Full claim (false, see `C52_fails`): the same for every triple. -/
theorem C52_partial (d ang rpy c : Fin 3 → ℝ) (m : ℝ) (I : Fin 6 → ℝ) (u body : LinkProp) (hu : u.Is m c I) (hr : u.rpy = realV rpy)
    (h1 : sin (ang 2) * sin (ang 0) = 0) (h2 : sin (rpy 2) * sin (rpy 0) = 0) :
    ∃ J, (transformBody (realV d) (realV ang) u body).Is m (d + Spec.rpy (ang 0) (ang 1) (ang 2) *ᵥ c) J ∧
      Spec.symm3 J = (Spec.rpy (ang 0) (ang 1) (ang 2) * Spec.rpy (rpy 0) (rpy 1) (rpy 2)) * Spec.symm3 I *
        (Spec.rpy (ang 0) (ang 1) (ang 2) * Spec.rpy (rpy 0) (rpy 1) (rpy 2))ᵀ ∧ (Spec.symm3 J).trace = (Spec.symm3 I).trace := by
  obtain ⟨J, h, e, -⟩ := C52_frame d ang rpy c m I u body hu hr _ _ (rpyRot_real _) (rpyRot_real _)
  rw [codeRot_of_zero h1] at h
  rw [codeRot_of_zero h1, codeRot_of_zero h2] at e
  refine ⟨J, h, e, ?_⟩
  have hQ := (isRot_rpy (ang 0) (ang 1) (ang 2)).mul (isRot_rpy (rpy 0) (rpy 1) (rpy 2))
  rw [e, trace_mul_comm, ← mul_assoc, hQ.orth, one_mul]

theorem codeRot_zero : codeRot ((0 : Fin 3 → ℝ) 0) ((0 : Fin 3 → ℝ) 1) ((0 : Fin 3 → ℝ) 2) = 1 := by
  ext i j; fin_cases i <;> fin_cases j <;> simp [codeRot]

/-- **C52**: the exact condition.  The transform by the angles `ang` is the change of frame by a rotation, for every body given without own
angles, exactly when `sin yaw · sin roll = 0`. -/
theorem C52_iff (d ang : Fin 3 → ℝ) :
    (∃ S, IsRot S ∧ ∀ (u body : LinkProp) (m : ℝ) (c : Fin 3 → ℝ) (I : Fin 6 → ℝ), u.Is m c I → u.rpy = realV 0 →
      ∃ J, (transformBody (realV d) (realV ang) u body).Is m (d + S *ᵥ c) J ∧ Spec.symm3 J = S * Spec.symm3 I * Sᵀ) ↔
    sin (ang 2) * sin (ang 0) = 0 := by
  constructor
  · rintro ⟨S, hS, h⟩
    have e : ∀ c : Fin 3 → ℝ, S *ᵥ c = codeRot (ang 0) (ang 1) (ang 2) *ᵥ c := fun c => by
      have hu : (⟨"u", some 1, realV 0, realV c, realV 0, []⟩ : LinkProp).Is 1 c 0 := ⟨rfl, rfl, rfl⟩
      obtain ⟨J, h1, -⟩ := h _ ⟨"", none, realV 0, realV 0, realV 0, []⟩ 1 c 0 hu rfl
      obtain ⟨J', h2, -⟩ := C52_frame d ang 0 c 1 0 _ ⟨"", none, realV 0, realV 0, realV 0, []⟩ hu rfl _ _ (rpyRot_real _) (rpyRot_real _)
      have h3 := h1.2.1.symm.trans h2.2.1
      funext k
      have h4 := Option.some.inj (congrFun h3 k)
      simpa using h4
    have : S = codeRot (ang 0) (ang 1) (ang 2) := Matrix.ext_of_mulVec_single fun j => e _
    rw [this] at hS
    exact (isRot_codeRot_iff _ _ _).mp hS
  · intro h
    refine ⟨_, isRot_rpy (ang 0) (ang 1) (ang 2), fun u body m c I hu hr => ?_⟩
    obtain ⟨J, h1, h2, -⟩ := C52_partial d ang 0 c m I u body hu hr h (by simp)
    refine ⟨J, h1, ?_⟩
    have h3 : Spec.rpy ((0 : Fin 3 → ℝ) 0) ((0 : Fin 3 → ℝ) 1) ((0 : Fin 3 → ℝ) 2) = 1 := by
      rw [← codeRot_of_zero (by simp), codeRot_zero]
    rw [h2, h3, mul_one]

/-- **C52**: the trace of the inertia is kept for every inertia exactly when `sin yaw · sin roll = 0` or `cos yaw = cos roll = 0`; in the second
case the matrix used is orthogonal but a reflection. -/
theorem C52_trace_iff (d ang : Fin 3 → ℝ) :
    (∀ (u body : LinkProp) (m : ℝ) (c : Fin 3 → ℝ) (I : Fin 6 → ℝ), u.Is m c I → u.rpy = realV 0 →
      ∃ c' J, (transformBody (realV d) (realV ang) u body).Is m c' J ∧ (Spec.symm3 J).trace = (Spec.symm3 I).trace) ↔
    sin (ang 2) * sin (ang 0) = 0 ∨ cos (ang 2) = 0 ∧ cos (ang 0) = 0 := by
  have key : ∀ (u body : LinkProp) (m : ℝ) (c : Fin 3 → ℝ) (I : Fin 6 → ℝ), u.Is m c I → u.rpy = realV 0 → ∀ c' J,
      (transformBody (realV d) (realV ang) u body).Is m c' J →
      Spec.symm3 J = codeRot (ang 0) (ang 1) (ang 2) * Spec.symm3 I * (codeRot (ang 0) (ang 1) (ang 2))ᵀ := by
    intro u body m c I hu hr c' J hJ
    obtain ⟨J', h1, h2, -⟩ := C52_frame d ang 0 c m I u body hu hr _ _ (rpyRot_real _) (rpyRot_real _)
    rw [codeRot_zero, mul_one] at h2
    have : J = J' := by
      funext k
      exact Option.some.inj (congrFun (hJ.2.2.symm.trans h1.2.2) k)
    rw [this, h2]
  have ex : ∀ (u body : LinkProp) (m : ℝ) (c : Fin 3 → ℝ) (I : Fin 6 → ℝ), u.Is m c I → u.rpy = realV 0 → ∃ c' J,
      (transformBody (realV d) (realV ang) u body).Is m c' J := fun u body m c I hu hr => by
    obtain ⟨J', h1, -, -⟩ := C52_frame d ang 0 c m I u body hu hr _ _ (rpyRot_real _) (rpyRot_real _)
    exact ⟨_, _, h1⟩
  have s0 := sin_sq_add_cos_sq (ang 0)
  have s1 := sin_sq_add_cos_sq (ang 1)
  have s2 := sin_sq_add_cos_sq (ang 2)
  constructor
  · intro h
    have tr : ∀ I : Fin 6 → ℝ, (codeRot (ang 0) (ang 1) (ang 2) * Spec.symm3 I * (codeRot (ang 0) (ang 1) (ang 2))ᵀ).trace = (Spec.symm3 I).trace :=
      fun I => by
        have hu : (⟨"u", some 1, realV I, realV 0, realV 0, []⟩ : LinkProp).Is 1 0 I := ⟨rfl, rfl, rfl⟩
        obtain ⟨c', J, h1, h2⟩ := h _ ⟨"", none, realV 0, realV 0, realV 0, []⟩ 1 0 I hu rfl
        rw [← key _ _ _ _ _ hu rfl _ _ h1, h2]
    have t1 := tr ![0, 0, 1, 0, 0, 0]
    have t2 := tr ![0, 0, 0, 0, 1, 0]
    have t3 := tr ![0, 0, 0, 0, 0, 1]
    simp only [Matrix.trace, diag, mul_apply, Fin.sum_univ_three, transpose_apply] at t1 t2 t3
    simp [codeRot, Spec.symm3] at t1 t2 t3
    generalize sin (ang 0) = sr at *
    generalize cos (ang 0) = cr at *
    generalize sin (ang 1) = sp at *
    generalize cos (ang 1) = cp at *
    generalize sin (ang 2) = sy at *
    generalize cos (ang 2) = cy at *
    have u1 : sy * sr * (cy * cp) = 0 := by linear_combination (-1 / 4) * t1 + (1 / 2) * cp * sp * cr * s2
    have u2 : sy * sr * (cy * sp * sr - sy * cr) = 0 := by
      linear_combination (-1 / 4) * t2 + (1 / 2) * sr * cr * (sp ^ 2 - 1) * s2 + (1 / 2) * sr * cr * s1
    have u3 : sy * sr * (cy * sp * cr) = 0 := by
      linear_combination (-1 / 4) * t3 + (1 / 4) * (sp ^ 2 * cr ^ 2) * s2 + (1 / 4) * sr ^ 2 * s2 + (1 / 4) * cr ^ 2 * s1 + (1 / 4) * s0
    rcases eq_or_ne (sy * sr) 0 with h0 | h0
    · exact Or.inl h0
    right
    have v1 := (mul_eq_zero.mp u1).resolve_left h0
    have v2 := (mul_eq_zero.mp u2).resolve_left h0
    have v3 := (mul_eq_zero.mp u3).resolve_left h0
    have hsy : sy ≠ 0 := fun h => h0 (by rw [h, zero_mul])
    have hsr : sr ≠ 0 := fun h => h0 (by rw [h, mul_zero])
    have hcy : cy = 0 := by
      by_contra hcy
      have hcp : cp = 0 := (mul_eq_zero.mp v1).resolve_left hcy
      have hsp : sp ≠ 0 := fun h => by rw [h, hcp] at s1; norm_num at s1
      have hcr : cr = 0 := (mul_eq_zero.mp v3).resolve_left (mul_ne_zero hcy hsp)
      rw [hcr, mul_zero, sub_zero] at v2
      exact mul_ne_zero (mul_ne_zero hcy hsp) hsr v2
    refine ⟨hcy, ?_⟩
    rw [hcy, zero_mul, zero_mul, zero_sub, neg_eq_zero] at v2
    exact (mul_eq_zero.mp v2).resolve_left hsy
  · intro h u body m c I hu hr
    obtain ⟨c', J, hJ⟩ := ex u body m c I hu hr
    refine ⟨c', J, hJ, ?_⟩
    rw [key _ _ _ _ _ hu hr _ _ hJ, trace_mul_comm, ← mul_assoc]
    have ho : (codeRot (ang 0) (ang 1) (ang 2))ᵀ * codeRot (ang 0) (ang 1) (ang 2) = 1 := by
      rcases h with h | ⟨h1, h2⟩
      · rw [codeRot_of_zero h]
        exact (isRot_rpy (ang 0) (ang 1) (ang 2)).orth
      · rw [h1] at s2
        rw [h2] at s0
        ext i j
        fin_cases i <;> fin_cases j <;> simp [codeRot, h1, h2, mul_apply, Fin.sum_univ_three]
        · linear_combination cos (ang 1) ^ 2 * s2 + s1
        · linear_combination cos (ang 1) * sin (ang 1) * sin (ang 0) * s2
        · linear_combination cos (ang 1) * sin (ang 1) * sin (ang 0) * s2
        · linear_combination sin (ang 1) ^ 2 * sin (ang 0) ^ 2 * s2 + sin (ang 0) ^ 2 * s1 + s0
        · linear_combination sin (ang 0) ^ 2 * s2 + s0
    rw [ho, one_mul]

/-- C52 is false of the code: a rotation by roll = yaw = π/4, pitch = π/2 sends the inertia `diag(0,0,1)` to zero. -/
theorem C52_fails : ∃ (ang : Fin 3 → ℝ) (u : LinkProp), (∃ m c, u.Is m c ![0, 0, 0, 0, 0, 1]) ∧ u.rpy = realV 0 ∧
    ∀ d body, (transformBody (realV d) (realV ang) u body).parI = realV 0 := by
  refine ⟨![π / 4, π / 2, π / 4], ⟨"u", some 1, realV ![0, 0, 0, 0, 0, 1], realV 0, realV 0, []⟩, ⟨1, 0, rfl, rfl, rfl⟩, rfl, ?_⟩
  intro d body
  obtain ⟨J, h, e, -⟩ := C52_frame d ![π / 4, π / 2, π / 4] 0 0 1 ![0, 0, 0, 0, 0, 1]
    ⟨"u", some 1, realV ![0, 0, 0, 0, 0, 1], realV 0, realV 0, []⟩ body ⟨rfl, rfl, rfl⟩ rfl _ _ (rpyRot_real _) (rpyRot_real _)
  rw [h.2.2]
  congr 1
  have hs : Spec.symm3 J = 0 := by
    rw [e]
    have h1 : codeRot ((0 : Fin 3 → ℝ) 0) ((0 : Fin 3 → ℝ) 1) ((0 : Fin 3 → ℝ) 2) = 1 := by
      ext i j; fin_cases i <;> fin_cases j <;> simp [codeRot]
    rw [h1, mul_one]
    ext i j
    fin_cases i <;> fin_cases j <;> simp [codeRot, Spec.symm3, mul_apply, Fin.sum_univ_three, mul_comm]
  have hs' : ∀ i j, Spec.symm3 J i j = 0 := fun i j => by rw [hs]; rfl
  funext k
  fin_cases k
  exacts [hs' 0 0, hs' 0 1, hs' 0 2, hs' 1 1, hs' 1 2, hs' 2 2]

example : ∃ c' J, (transformBody (realV ![1, 2, 3]) (realV ![1, 1, 1])
    ⟨"u", some 2, realV ![1, 0, 0, 1, 0, 1], realV ![1, 0, 0], realV ![1, 2, 3], []⟩
    ⟨"", none, fun _ => none, fun _ => none, realV 0, []⟩).Is 2 c' J ∧ (Spec.symm3 J).PosSemidef :=
  C52_psd _ _ ![1, 2, 3] ![1, 0, 0] 2 ![1, 0, 0, 1, 0, 1] _ _ ⟨rfl, rfl, rfl⟩ rfl (by
    have : Spec.symm3 ![1, 0, 0, 1, 0, 1] = 1 := by ext i j; fin_cases i <;> fin_cases j <;> simp [Spec.symm3]
    rw [this]; exact PosSemidef.one)

/-- `C52_iff` and `C52_trace_iff` on angles that meet the condition and on angles that do not. -/
example (d : Fin 3 → ℝ) : ¬ ∃ S, IsRot S ∧ ∀ (u body : LinkProp) (m : ℝ) (c : Fin 3 → ℝ) (I : Fin 6 → ℝ), u.Is m c I → u.rpy = realV 0 →
    ∃ J, (transformBody (realV d) (realV ![π / 2, 1, π / 2]) u body).Is m (d + S *ᵥ c) J ∧ Spec.symm3 J = S * Spec.symm3 I * Sᵀ :=
  fun h => by simpa using (C52_iff d ![π / 2, 1, π / 2]).mp h
example (d : Fin 3 → ℝ) (u body : LinkProp) (m : ℝ) (c : Fin 3 → ℝ) (I : Fin 6 → ℝ) (hu : u.Is m c I) (hr : u.rpy = realV 0) :
    ∃ c' J, (transformBody (realV d) (realV ![π / 2, 1, π / 2]) u body).Is m c' J ∧ (Spec.symm3 J).trace = (Spec.symm3 I).trace :=
  (C52_trace_iff d ![π / 2, 1, π / 2]).mpr (Or.inr (by simp)) u body m c I hu hr

end Thunder
