import Verif.Spec.Flagged
import Verif.Props.Remount

/-!
# C34 for values changed in use and for generated classes

What `get` of two robots built from files that differ only in the marks of the symbolic parameters returns, when their parameters have the same values;
likewise for the getters of the classes generated from them.
-/

open scoped Classical
open Matrix

namespace Thunder

noncomputable section

open Spec Robot SX

section

variable [Fl] {y y' : Yaml} {c d : Conf}

/-! ## Auxiliary facts -/

theorem linkOf_remarked (hA : SameAngles c d) {i : ℕ} (hi : i < c.n) (x : ℝ) : linkOf (remarked c d) i x = linkOf c i x := by
  have e : kindOf (remarked c d) i = kindOf c i := rfl
  unfold linkOf
  rw [e]
  cases hk : kindOf c i with
  | prismatic =>
    show dh _ (angleOf (d.fdh (4 * i + 1)) (c.dh (4 * i + 1))) _ (angleOf (d.fdh (4 * i + 3)) (c.dh (4 * i + 3))) = _
    rw [hA.alpha i hi, hA.theta i hi hk]
    rfl
  | revolute =>
    show dh _ (angleOf (d.fdh (4 * i + 1)) (c.dh (4 * i + 1))) _ _ = _
    rw [hA.alpha i hi]
    rfl

theorem mountOf_same {f f' : ℕ → ℤ} {v : ℕ → ℝ} (h : ∀ i, 3 ≤ i → i < 6 → angleOf (f' i) (v i) = angleOf (f i) (v i)) : mountOf f' v = mountOf f v := by
  unfold mountOf
  rw [h 3 (by omega) (by omega), h 4 (by omega) (by omega), h 5 (by omega) (by omega)]

theorem linkFrame_remarked (hA : SameAngles c d) : linkFrame (remarked c d) = linkFrame c := by
  funext q i
  induction i with
  | zero => exact mountOf_same hA.w2l
  | succ i ih =>
    refine congrArg₂ (· * ·) ih ?_
    by_cases hi : i < c.n
    · rw [dif_pos hi, dif_pos (show i < (remarked c d).n from hi)]
      exact linkOf_remarked hA hi _
    · rw [dif_neg hi, dif_neg (show ¬ i < (remarked c d).n from hi)]

theorem toolFrame_remarked (hA : SameAngles c d) : toolFrame (remarked c d) = toolFrame c := by
  funext q
  exact congrArg₂ (· * ·) (congrFun (congrFun (linkFrame_remarked hA) q) c.n) (mountOf_same hA.ee)

theorem massOf_remarked (hA : SameAngles c d) : massOf (remarked c d) = massOf c :=
  congrArg (fun F : (Fin c.n → ℝ) → ℕ → Matrix (Fin 4) (Fin 4) ℝ => fun q => quadratic (kineticEnergy c.dyn c.n (fun i q => F q (i + 1)) q))
    (linkFrame_remarked hA)

theorem coriolisOf_remarked (hA : SameAngles c d) : coriolisOf (remarked c d) = coriolisOf c :=
  congrArg (fun A : (Fin c.n → ℝ) → Matrix (Fin c.n) (Fin c.n) ℝ => fun q v => christoffel A q v) (massOf_remarked hA)

theorem gravityOf_remarked (hA : SameAngles c d) : gravityOf (remarked c d) = gravityOf c :=
  congrArg (fun F : (Fin c.n → ℝ) → ℕ → Matrix (Fin 4) (Fin 4) ℝ => fun (q : Fin c.n → ℝ) j =>
    deriv (fun x => potential c.dyn (fun k => c.g k) c.n fun i => F (Function.update q j x) (i + 1)) (q j)) (linkFrame_remarked hA)

theorem same_withDyn (hA : SameAngles c d) (p : ℕ → ℝ) : SameAngles (withDyn c p) d := ⟨hA.alpha, hA.theta, hA.w2l, hA.ee⟩

variable {s : State c} {R R' : String → Mat → Prop}

theorem same_kinematic_rates (h : Source y c s R) (h' : Source y' (remarked c d) (s.remarked d) R') (hA : SameAngles c d) (hU : UnitNumeric c)
    (hU' : UnitNumeric (remarked c d)) :
    (∃ A : Matrix (Fin 6) (Fin c.n) ℝ, Returns R "J_ee_dot" A ∧ Returns R' "J_ee_dot" A) ∧
    (∃ A : Matrix (Fin 6) (Fin c.n) ℝ, Returns R "J_ee_ddot" A ∧ Returns R' "J_ee_ddot" A) ∧
    ∃ A : Matrix (Fin c.n) (Fin 6) ℝ, Returns R "J_ee_pinv" A ∧ Returns R' "J_ee_pinv" A := by
  have eJ : ∀ q : Fin c.n → ℝ, jacobianOf (toolFrame (remarked c d)) q = jacobianOf (toolFrame c) q := fun q =>
    congrArg (fun T : (Fin c.n → ℝ) → _ => jacobianOf T q) (toolFrame_remarked hA)
  obtain ⟨A, B, a1, b1, a2, b2⟩ := C57_rates h hU
  obtain ⟨A', B', a1', b1', a2', b2'⟩ := C57_rates h' hU'
  let p : ℝ → Fin c.n → ℝ := through s.q s.dq s.ddq s.d3q
  let v : ℝ → Fin c.n → ℝ := fun x i => s.dq i + x * s.ddq i + x ^ 2 / 2 * s.d3q i
  have p0 : p 0 = s.q := through_zero s.q s.dq s.ddq s.d3q
  have v0 : v 0 = s.dq := by funext i; simp [v]
  have pd : ∀ x i, HasDerivAt (fun x => p x i) (v x i) x := through_der s.q s.dq s.ddq s.d3q
  have pd0 : ∀ i, HasDerivAt (fun x => p x i) (s.dq i) 0 := fun i => by have := pd 0 i; rwa [v0] at this
  have vd0 : ∀ i, HasDerivAt (fun x => v x i) (s.ddq i) 0 := fun i => by simpa using through_der2 s.dq s.ddq s.d3q 0 i
  have eF : ∀ a b, (fun x => jacobianOf (toolFrame (remarked c d)) (p x) a b) = fun x => jacobianOf (toolFrame c) (p x) a b := fun a b =>
    funext fun x => congrFun (congrFun (eJ (p x)) a) b
  have e1 : A' = A := by
    ext a b
    exact HasDerivAt.unique (eF a b ▸ a2' p 0 p0 pd0 a b) (a2 p 0 p0 pd0 a b)
  have e2 : B' = B := by
    ext a b
    exact HasDerivAt.unique (congrArg deriv (eF a b) ▸ b2' p v 0 p0 v0 pd vd0 a b) (b2 p v 0 p0 v0 pd vd0 a b)
  obtain ⟨P, hP, P1⟩ := C57_pinv h hU
  obtain ⟨P', hP', P1'⟩ := C57_pinv h' hU'
  have e3 : P' = P := by
    have := pinv_turned (J := jacobianOf (toolFrame c) s.q) (P := P) (P' := P') (S := 1) (by simp) P1 fun v x hx => by
      rw [Matrix.one_mul, ← eJ s.q]
      exact P1' v x hx
    rw [transpose_one, Matrix.mul_one] at this
    exact this
  exact ⟨⟨A, a1, e1 ▸ a1'⟩, ⟨B, b1, e2 ▸ b1'⟩, P, hP, e3 ▸ hP'⟩

theorem same_rates (h : Source y c s R) (h' : Source y' (remarked c d) (s.remarked d) R') (hA : SameAngles c d) (hU : UnitNumeric c)
    (hU' : UnitNumeric (remarked c d)) :
    (∃ A : Matrix (Fin c.n) (Fin c.n) ℝ, Returns R "M_dot" A ∧ Returns R' "M_dot" A) ∧
    (∃ A : Matrix (Fin c.n) (Fin c.n) ℝ, Returns R "M_ddot" A ∧ Returns R' "M_ddot" A) ∧
    (∃ A : Matrix (Fin c.n) (Fin c.n) ℝ, Returns R "C_dot" A ∧ Returns R' "C_dot" A) ∧
    (∃ A : Matrix (Fin c.n) (Fin c.n) ℝ, Returns R "C_ddot" A ∧ Returns R' "C_ddot" A) ∧
    (∃ A : Fin c.n → ℝ, ReturnsVec R "G_dot" A ∧ ReturnsVec R' "G_dot" A) ∧
    ∃ A : Fin c.n → ℝ, ReturnsVec R "G_ddot" A ∧ ReturnsVec R' "G_ddot" A := by
  obtain ⟨M₁, M₂, C₁, C₂, G₁, G₂, r1, r2, r3, r4, r5, r6, r7, r8⟩ := C58_rates h hU
  obtain ⟨M₁', M₂', C₁', C₂', G₁', G₂', r1', r2', r3', r4', r5', r6', r7', r8'⟩ := C58_rates h' hU'
  have eM := massOf_remarked hA
  have eC := coriolisOf_remarked hA
  have eG := gravityOf_remarked hA
  let p : ℝ → Fin c.n → ℝ := through s.q s.dq s.ddq s.d3q
  let v : ℝ → Fin c.n → ℝ := fun x i => s.dq i + x * s.ddq i + x ^ 2 / 2 * s.d3q i
  let a : ℝ → Fin c.n → ℝ := fun x i => s.ddq i + x * s.d3q i
  have p0 : p 0 = s.q := through_zero s.q s.dq s.ddq s.d3q
  have v0 : v 0 = s.dq := by funext i; simp [v]
  have a0 : a 0 = s.ddq := by funext i; simp [a]
  have pd : ∀ x i, HasDerivAt (fun x => p x i) (v x i) x := through_der s.q s.dq s.ddq s.d3q
  have vd : ∀ x i, HasDerivAt (fun x => v x i) (a x i) x := through_der2 s.dq s.ddq s.d3q
  have ad : ∀ i, HasDerivAt (fun x => a x i) (s.d3q i) 0 := through_der3 s.ddq s.d3q 0
  have vd0 : ∀ i, HasDerivAt (fun x => v x i) (s.ddq i) 0 := fun i => by have := vd 0 i; rwa [a0] at this
  have t1 := r7 p v 0 p0 v0 (pd 0) vd0
  have t1' := r7' p v 0 p0 v0 (pd 0) vd0
  have t2 := r8 p v a 0 p0 v0 a0 pd vd ad
  have t2' := r8' p v a 0 p0 v0 a0 pd vd ad
  have fM : ∀ i j, (fun x => massOf (remarked c d) (p x) i j) = fun x => massOf c (p x) i j := fun i j =>
    funext fun x => congrFun (congrFun (congrFun eM (p x)) i) j
  have fC : ∀ i j, (fun x => coriolisOf (remarked c d) (p x) (v x) i j) = fun x => coriolisOf c (p x) (v x) i j := fun i j =>
    funext fun x => congrFun (congrFun (congrFun (congrFun eC (p x)) (v x)) i) j
  have fG : ∀ i, (fun x => gravityOf (remarked c d) (p x) i) = fun x => gravityOf c (p x) i := fun i =>
    funext fun x => congrFun (congrFun eG (p x)) i
  have e1 : M₁' = M₁ := by ext i j; exact HasDerivAt.unique (fM i j ▸ (t1' i j).1) (t1 i j).1
  have e2 : M₂' = M₂ := by ext i j; exact HasDerivAt.unique (congrArg deriv (fM i j) ▸ (t2' i j).1) (t2 i j).1
  have e3 : C₁' = C₁ := by ext i j; exact HasDerivAt.unique (fC i j ▸ (t1' i j).2.2) (t1 i j).2.2
  have e4 : C₂' = C₂ := by ext i j; exact HasDerivAt.unique (congrArg deriv (fC i j) ▸ (t2' i j).2.2) (t2 i j).2.2
  have e5 : G₁' = G₁ := by ext i; exact HasDerivAt.unique (fG i ▸ (t1' i i).2.1) (t1 i i).2.1
  have e6 : G₂' = G₂ := by ext i; exact HasDerivAt.unique (congrArg deriv (fG i) ▸ (t2' i i).2.1) (t2 i i).2.1
  exact ⟨⟨_, r1, e1 ▸ r1'⟩, ⟨_, r4, e2 ▸ r4'⟩, ⟨_, r2, e3 ▸ r2'⟩, ⟨_, r5, e4 ▸ r5'⟩, ⟨_, r3, e5 ▸ r3'⟩, ⟨_, r6, e6 ▸ r6'⟩⟩

theorem same_regressors (h : Source y c s R) (h' : Source y' (remarked c d) (s.remarked d) R') (hA : SameAngles c d) (hU : UnitNumeric c)
    (hU' : UnitNumeric (remarked c d)) :
    (∃ A : Matrix (Fin c.n) (Fin (10 * c.n)) ℝ, Returns R "Yr" A ∧ Returns R' "Yr" A) ∧
    (∃ A : Matrix (Fin c.n) (Fin (10 * c.n)) ℝ, Returns R "reg_M" A ∧ Returns R' "reg_M" A) ∧
    (∃ A : Matrix (Fin c.n) (Fin (10 * c.n)) ℝ, Returns R "reg_C" A ∧ Returns R' "reg_C" A) ∧
    ∃ A : Matrix (Fin c.n) (Fin (10 * c.n)) ℝ, Returns R "reg_G" A ∧ Returns R' "reg_G" A := by
  obtain ⟨Y, YM, YC, YG, y1, y2, y3, y4, y5, y6⟩ := C59_inertial h hU
  obtain ⟨Y', YM', YC', YG', y1', y2', y3', y4', y5', y6'⟩ := C59_inertial h' hU'
  have e5 : YM' = YM := eq_of_reg fun θ => by
    refine ((y6' θ).1.trans ?_).trans (y6 θ).1.symm
    exact congrArg (fun A : Matrix (Fin c.n) (Fin c.n) ℝ => A *ᵥ s.ddqr) (congrFun (massOf_remarked (same_withDyn hA θ)) s.q)
  have e6 : YC' = YC := eq_of_reg fun θ => by
    refine ((y6' θ).2.1.trans ?_).trans (y6 θ).2.1.symm
    exact congrArg (fun A : Matrix (Fin c.n) (Fin c.n) ℝ => A *ᵥ s.dqr) (congrFun (congrFun (coriolisOf_remarked (same_withDyn hA θ)) s.q) s.dq)
  have e9 : YG' = YG := eq_of_reg fun θ => ((y6' θ).2.2.1.trans (congrFun (gravityOf_remarked (same_withDyn hA θ)) s.q)).trans (y6 θ).2.2.1.symm
  have e10 : Y' = Y := by rw [y5, ← e5, ← e6, ← e9]; exact y5'
  exact ⟨⟨_, y1, e10 ▸ y1'⟩, ⟨_, y2, e5 ▸ y2'⟩, ⟨_, y3, e6 ▸ y3'⟩, _, y4, e9 ▸ y4'⟩

/-! ## The property -/

/-- The cosine and the sine used for the angles do not depend on the marks when they are exact for the numeric angles. -/
theorem C34_exact (hE : ExactNumeric c) (hE' : ExactNumeric (remarked c d)) : SameAngles c d :=
  ⟨fun i hi => (angleOf_exact fun h0 => hE' _ (.inl ⟨i, hi, h0, rfl⟩)).trans (angleOf_exact fun h0 => hE _ (.inl ⟨i, hi, h0, rfl⟩)).symm,
    fun i hi hk => (angleOf_exact fun h0 => hE' _ (.inr (.inl ⟨i, hi, hk, h0, rfl⟩))).trans
      (angleOf_exact fun h0 => hE _ (.inr (.inl ⟨i, hi, hk, h0, rfl⟩))).symm,
    fun i h3 h6 => (angleOf_exact fun h0 => hE' _ (.inr (.inr ⟨i, h3, h6, .inl ⟨h0, rfl⟩⟩))).trans
      (angleOf_exact fun h0 => hE _ (.inr (.inr ⟨i, h3, h6, .inl ⟨h0, rfl⟩⟩))).symm,
    fun i h3 h6 => (angleOf_exact fun h0 => hE' _ (.inr (.inr ⟨i, h3, h6, .inr ⟨h0, rfl⟩⟩))).trans
      (angleOf_exact fun h0 => hE _ (.inr (.inr ⟨i, h3, h6, .inr ⟨h0, rfl⟩⟩))).symm⟩

/-- C34 for robots and generated classes in use, after any change of the values: marking other parameters as symbolic changes none of the returned
values.  Missing from the full claim: angles whose cosine and sine depend on the mark (then the claim is false, `C34_fails`), numeric angles whose
cosine and sine are not on the unit circle, and the regressors with one column per symbolic parameter. -/
theorem C34_partial_values (h : Source y c s R) (h' : Source y' (remarked c d) (s.remarked d) R') (hA : SameAngles c d) (hU : UnitNumeric c)
    (hU' : UnitNumeric (remarked c d)) {f : String} (hf : f ∈ library c) (hx : f ∉ parRegressors) :
    ∃ (m n : ℕ) (A : Matrix (Fin m) (Fin n) ℝ), Returns R f A ∧ Returns R' f A := by
  obtain ⟨F, hv, rfl⟩ := Fn.mem_library.1 hf
  have eL := linkFrame_remarked hA
  have eT := toolFrame_remarked hA
  have eL' : ∀ i, (fun q : Fin c.n → ℝ => linkFrame (remarked c d) q i) = fun q => linkFrame c q i := fun i => funext fun q => congrFun (congrFun eL q) i
  obtain ⟨a0, a1, a2, a3, a4⟩ := C56_frames h
  obtain ⟨b0, b1, b2, b3, b4⟩ := C56_frames h'
  obtain ⟨c1, c2, c3⟩ := C57_jacobians h hU
  obtain ⟨d1, d2, d3⟩ := C57_jacobians h' hU'
  obtain ⟨m1, m2, m3, m4⟩ := C58_matrices h hU
  obtain ⟨m1', m2', m3', m4'⟩ := C58_matrices h' hU'
  obtain ⟨⟨A1, k1, k1'⟩, ⟨A2, k2, k2'⟩, A3, k3, k3'⟩ := same_kinematic_rates h h' hA hU hU'
  obtain ⟨⟨B1, r1, r1'⟩, ⟨B2, r2, r2'⟩, ⟨B3, r3, r3'⟩, ⟨B4, r4, r4'⟩, ⟨B5, r5, r5'⟩, B6, r6, r6'⟩ := same_rates h h' hA hU hU'
  obtain ⟨⟨Y1, y1, y1'⟩, ⟨Y2, y2, y2'⟩, ⟨Y3, y3, y3'⟩, Y4, y4, y4'⟩ := same_regressors h h' hA hU hU'
  have eTool : toolFrame (remarked c d) s.q = toolFrame c s.q := congrFun eT s.q
  have eJee : jacobianOf (toolFrame (remarked c d)) s.q = jacobianOf (toolFrame c) s.q :=
    congrArg (fun T : (Fin c.n → ℝ) → _ => jacobianOf T s.q) eT
  have pl : ∀ {F : Fn} {t : String}, F.name = t → (∃ (m n : ℕ) (A : Matrix (Fin m) (Fin n) ℝ), Returns R t A ∧ Returns R' t A) →
      ∃ (m n : ℕ) (A : Matrix (Fin m) (Fin n) ℝ), Returns R F.name A ∧ Returns R' F.name A := fun e k => e ▸ k
  cases F with
  | T i =>
    cases i with
    | zero =>
      refine pl (t := "T_0") (by decide) ⟨_, _, _, a0, ?_⟩
      exact (mountOf_same hA.w2l : mountOf (remarked c d).fw2l (remarked c d).w2l = mountOf c.fw2l c.w2l) ▸ b0
    | succ i =>
      have hi : i < c.n := hv
      exact ⟨_, _, _, a1 i hi, (linkOf_remarked hA hi (s.q ⟨i, hi⟩) : linkOf (remarked c d) i (s.q ⟨i, hi⟩) = _) ▸ b1 i hi⟩
  | T0 i =>
    have hi : i ≤ c.n + 1 := hv
    by_cases h0 : i ≤ c.n
    · exact ⟨_, _, _, a2 i h0, (congrFun (congrFun eL s.q) i : linkFrame (remarked c d) s.q i = _) ▸ b2 i h0⟩
    · obtain rfl : i = c.n + 1 := by omega
      exact ⟨_, _, _, a3, eTool ▸ b3⟩
  | T0ee => exact pl (t := "T_0_ee") (by decide) ⟨_, _, _, a4, eTool ▸ b4⟩
  | J i =>
    obtain ⟨h1, h2⟩ : 1 ≤ i ∧ i ≤ c.n + 1 := hv
    obtain ⟨i, rfl⟩ := Nat.exists_eq_add_of_le' h1
    by_cases h0 : i < c.n
    · exact ⟨_, _, _, c1 i h0, congrArg (fun T : (Fin c.n → ℝ) → _ => jacobianOf T s.q) (eL' (i + 1)) ▸ d1 i h0⟩
    · obtain rfl : i = c.n := by omega
      exact ⟨_, _, _, c2, eJee ▸ d2⟩
  | Jee => exact pl (t := "J_ee") (by decide) ⟨_, _, _, c3, eJee ▸ d3⟩
  | JeeDot => exact pl (t := "J_ee_dot") (by decide) ⟨_, _, _, k1, k1'⟩
  | JeeDdot => exact pl (t := "J_ee_ddot") (by decide) ⟨_, _, _, k2, k2'⟩
  | JeePinv => exact pl (t := "J_ee_pinv") (by decide) ⟨_, _, _, k3, k3'⟩
  | Jcm i =>
    obtain ⟨h1, h2⟩ : 1 ≤ i ∧ i ≤ c.n := hv
    obtain ⟨i, rfl⟩ := Nat.exists_eq_add_of_le' h1
    have h0 : i < c.n := by omega
    exact ⟨_, _, _, (C57_com h hU h0).1,
      congrArg (fun T : (Fin c.n → ℝ) → _ => jacobianAt T (com c.dyn i) s.q) (eL' (i + 1)) ▸ (C57_com h' hU' h0).1⟩
  | M => exact pl (t := "M") (by decide) ⟨_, _, _, m1, (congrFun (massOf_remarked hA) s.q : massOf (remarked c d) s.q = _) ▸ m1'⟩
  | C =>
    exact pl (t := "C") (by decide)
      ⟨_, _, _, m2, (congrFun (congrFun (coriolisOf_remarked hA) s.q) s.dq : coriolisOf (remarked c d) s.q s.dq = _) ▸ m2'⟩
  | Cstd =>
    exact pl (t := "C_std") (by decide)
      ⟨_, _, _, m3, (congrFun (congrFun (coriolisOf_remarked hA) s.q) s.dq : coriolisOf (remarked c d) s.q s.dq = _) ▸ m3'⟩
  | G => exact pl (t := "G") (by decide) ⟨_, _, _, m4, (congrFun (gravityOf_remarked hA) s.q : gravityOf (remarked c d) s.q = _) ▸ m4'⟩
  | Mdot => exact pl (t := "M_dot") (by decide) ⟨_, _, _, r1, r1'⟩
  | Mddot => exact pl (t := "M_ddot") (by decide) ⟨_, _, _, r2, r2'⟩
  | Cdot => exact pl (t := "C_dot") (by decide) ⟨_, _, _, r3, r3'⟩
  | Cddot => exact pl (t := "C_ddot") (by decide) ⟨_, _, _, r4, r4'⟩
  | Gdot => exact pl (t := "G_dot") (by decide) ⟨_, _, _, r5, r5'⟩
  | Gddot => exact pl (t := "G_ddot") (by decide) ⟨_, _, _, r6, r6'⟩
  | Yr => exact pl (t := "Yr") (by decide) ⟨_, _, _, y1, y1'⟩
  | regM => exact pl (t := "reg_M") (by decide) ⟨_, _, _, y2, y2'⟩
  | regC => exact pl (t := "reg_C") (by decide) ⟨_, _, _, y3, y3'⟩
  | regG => exact pl (t := "reg_G") (by decide) ⟨_, _, _, y4, y4'⟩
  | dl => exact pl (t := "dl") (by decide) ⟨_, _, _, (C60_link h hv).1, (C60_link h' hv).1⟩
  | Dl i =>
    obtain ⟨h1, h2⟩ : 1 ≤ i ∧ i ≤ c.dlO := hv
    obtain ⟨i, rfl⟩ := Nat.exists_eq_add_of_le' h1
    have h0 : 0 < c.dlO := by omega
    exact ⟨_, _, _, (C60_link h h0).2 i h2, (C60_link h' h0).2 i h2⟩
  | k => exact pl (t := "k") (by decide) ⟨_, _, _, (C60_elastic h hv.1).1 hv.2, (C60_elastic h' hv.1).1 hv.2⟩
  | K i => exact ⟨_, _, _, (C60_elastic h hv.1).2.1 i hv.2, (C60_elastic h' hv.1).2.1 i hv.2⟩
  | d => exact pl (t := "d") (by decide) ⟨_, _, _, (C60_elastic h hv.1).2.2.1 hv.2, (C60_elastic h' hv.1).2.2.1 hv.2⟩
  | D i =>
    obtain ⟨he, h1, h2⟩ : c.elastic = true ∧ 1 ≤ i ∧ i ≤ c.dO := hv
    obtain ⟨i, rfl⟩ := Nat.exists_eq_add_of_le' h1
    exact ⟨_, _, _, (C60_elastic h he).2.2.2.1 i h2, (C60_elastic h' he).2.2.2.1 i h2⟩
  | dm => exact pl (t := "dm") (by decide) ⟨_, _, _, (C60_elastic h hv.1).2.2.2.2.1 hv.2, (C60_elastic h' hv.1).2.2.2.2.1 hv.2⟩
  | Dm i =>
    obtain ⟨he, h1, h2⟩ : c.elastic = true ∧ 1 ≤ i ∧ i ≤ c.dmO := hv
    obtain ⟨i, rfl⟩ := Nat.exists_eq_add_of_le' h1
    exact ⟨_, _, _, (C60_elastic h he).2.2.2.2.2.1 i h2, (C60_elastic h' he).2.2.2.2.2.1 i h2⟩
  | Mm => exact pl (t := "Mm") (by decide) ⟨_, _, _, (C60_elastic h hv).2.2.2.2.2.2, (C60_elastic h' hv).2.2.2.2.2.2⟩
  | regJdq | regJTw | regDl | regK | regD | regDm | regMm => exact absurd (by decide) hx

end

/-! ## Examples -/

namespace Ex

/-- Other marks, on the parameters of the links, gravity and the springs. -/
def marks : Conf := { armTuned with fdyn := fun i => if i % 2 = 1 then 1 else 0, fg := fun _ => 1, fK := fun _ => 0 }

/-- The arm returns the same regressor, and a class generated from the file with the other marks returns it too. -/
example : ∃ r g o, @Running fl (fileOf arm) armTuned armState r ∧ @Generated fl (fileOf (remarked armTuned marks)) (remarked armTuned marks) (armState.remarked marks) g o ∧
    ∃ (m n : ℕ) (A : Matrix (Fin m) (Fin n) ℝ), Returns (answers r) "Yr" A ∧ Returns (classAnswers g o) "Yr" A := by
  let _ := fl
  obtain ⟨r, hr⟩ := running_arm
  have hd := describes_fileOf (c := remarked armTuned marks) (fun h => nomatch h)
  obtain ⟨g, e, -⟩ := C56_start hd joints_arm (name := "robot") (robotName_of_check (f := "M") (by decide +kernel))
  obtain ⟨-, o, -, ho⟩ := C61_reachable hd joints_arm (retuned_refl _) (armState.remarked marks) e
  have hA : SameAngles armTuned marks := ⟨fun _ _ => rfl, fun _ _ _ => rfl, fun _ _ _ => rfl, fun _ _ _ => rfl⟩
  exact ⟨r, g, o, hr, ho, C34_partial_values (.robot hr) (.generated ho) hA unit_arm unit_arm (f := "Yr") (by
    simp [library, dynNames]) (by decide)⟩

end Ex

end

end Thunder
