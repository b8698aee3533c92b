import Verif.Lemmas.Kinematics

/-!
# The kinematic chain: recurrences, rotations and directional derivatives
-/

open scoped Classical
open Matrix

namespace Thunder

noncomputable section

/-- Shape of a parameter vector after the substitution of the non-symbolic entries (`init_symb_parameters`): every entry is
either its own symbol or a number. -/
structure ParVec (name : String) (k : ℕ) (A : SX) : Prop where
  ok : A.ok
  rows : A.rows = k
  cols : A.cols = 1
  e : ∀ i j, (A.e i j = .var ⟨name, i⟩ ∧ i < k ∧ j = 0) ∨ ∃ c, A.e i j = .const c

/-- Well-formed symbolic inputs, as produced by the constructor and `init_symb_parameters` for a valid configuration. -/
structure Base.WF (B : Base) : Prop where
  npos : 0 < B.n
  len : B.types.length = B.n
  types : ∀ i < B.n, isP (B.ty i) ∨ isR (B.ty i)
  q : B.q = SX.sym "q" B.n
  dq : B.dq = SX.sym "dq" B.n
  ddq : B.ddq = SX.sym "ddq" B.n
  d3q : B.d3q = SX.sym "d3q" B.n
  dqr : B.dqr = SX.sym "dqr" B.n
  ddqr : B.ddqr = SX.sym "ddqr" B.n
  w : B.w = SX.sym "w" 6
  dh : ParVec "DHtable" (B.n * 4) B.dh
  w2l : ParVec "world2L0" 6 B.w2l
  ee : ParVec "Ln2EE" 6 B.ee
  g : ParVec "gravity" 3 B.g
  dyn : ParVec "par_DYN" (B.n * 10) B.dyn

/-- Numeric (non-symbolic) angles occurring in the kinematic parameters: every `alpha`, the `theta` of prismatic joints, and the
yaw/pitch/roll angles of the two frames. -/
def Base.NumAngle (B : Base) (c : ℝ) : Prop :=
  (∃ i < B.n, B.dh.e (i * 4 + 1) 0 = .const c ∨ (isP (B.ty i) ∧ B.dh.e (i * 4 + 3) 0 = .const c)) ∨
  (∃ k, 3 ≤ k ∧ k < 6 ∧ (B.w2l.e k 0 = .const c ∨ B.ee.e k 0 = .const c))

/-- The snapped library results for a numeric angle lie on the unit circle. -/
def UnitAngle [Fl] (c : ℝ) : Prop := Spec.snap (Fl.cosF c) ^ 2 + Spec.snap (Fl.sinF c) ^ 2 = 1

/-- … for every numeric angle of the robot.  Symbolic angles need no hypothesis. -/
def Base.UnitAngles [Fl] (B : Base) : Prop := ∀ c, B.NumAngle c → UnitAngle c

/-- The snapped library results for a numeric angle are exact. -/
def ExactAngle [Fl] (c : ℝ) : Prop := Spec.snap (Fl.cosF c) = Real.cos c ∧ Spec.snap (Fl.sinF c) = Real.sin c

/-- … for every numeric angle of the robot. -/
def Base.ExactAngles [Fl] (B : Base) : Prop := ∀ c, B.NumAngle c → ExactAngle c

theorem Base.ExactAngles.unit [Fl] {B : Base} (h : B.ExactAngles) : B.UnitAngles := fun c hc => by
  obtain ⟨h1, h2⟩ := h c hc
  rw [UnitAngle, h1, h2]; exact Real.cos_sq_add_sin_sq c

/-- A direction in which only the joint coordinates move. -/
def QDir (δ : Var → ℝ) : Prop := ∀ v : Var, v.name ≠ "q" → δ v = 0

theorem ParVec.fv {name k A} (h : ParVec name k A) (i j : ℕ) : Expr.fv (A.e i j) ⊆ {v | v.name = name ∧ v.idx < k} := by
  rcases h.e i j with ⟨h', hi, _⟩ | ⟨c, h'⟩
  · rw [h']; simp [hi]
  · rw [h']; simp

theorem ParVec.over {name k A} (h : ParVec name k A) : SX.Over {v | v.name = name ∧ v.idx < k} A := h.fv

theorem ParVec.dir {name k A} (h : ParVec name k A) {δ : Var → ℝ} (hδ : QDir δ) (hn : name ≠ "q") (ρ) (i j : ℕ) :
    Expr.dir ρ δ (A.e i j) = 0 :=
  Expr.dir_eq_zero fun v hv => hδ v (by rw [(h.fv i j hv).1]; exact hn)

theorem ParVec.smooth {name k A} (h : ParVec name k A) (S : Set Var) : SX.Smooth S A := fun i j => by
  rcases h.e i j with ⟨h', _⟩ | ⟨c, h'⟩ <;> rw [h'] <;> trivial

/-- Expressions that are not literal constants. -/
def NotConst (e : Expr) : Prop := ∀ c, e ≠ .const c

theorem notConst_sadd_var (a : Expr) (v : Var) : NotConst (Expr.sadd a (.var v)) := by
  intro c
  unfold Expr.sadd
  split_ifs <;> simp_all

variable [Fl]

theorem ang_of_notConst {ρ : Var → ℝ} {e : Expr} (h : NotConst e) : ang ρ e = Spec.cs (Expr.eval ρ e) := by
  cases e <;> first | rfl | exact absurd rfl (h _)

theorem ang_unit {ρ : Var → ℝ} {e : Expr} (h : ∀ c, e = .const c → UnitAngle c) :
    (ang ρ e).1 ^ 2 + (ang ρ e).2 ^ 2 = 1 := by
  by_cases hc : NotConst e
  · rw [ang_of_notConst hc]; exact Real.cos_sq_add_sin_sq _
  · simp only [NotConst, not_forall, not_not] at hc
    obtain ⟨c, rfl⟩ := hc
    exact h c rfl

theorem ang_exact {ρ : Var → ℝ} {e : Expr} (h : ∀ c, e = .const c → ExactAngle c) :
    ang ρ e = Spec.cs (Expr.eval ρ e) := by
  by_cases hc : NotConst e
  · exact ang_of_notConst hc
  · simp only [NotConst, not_forall, not_not] at hc
    obtain ⟨c, rfl⟩ := hc
    obtain ⟨h1, h2⟩ := h c rfl
    simp [ang, h1, h2, Spec.cs]

namespace Base

variable {B : Base} (hB : B.WF) (ρ δ : Var → ℝ)

/-- Angle expressions of link `i`. -/
def alphaE (B : Base) (i : ℕ) : Expr := B.dh.e (i * 4 + 1) 0
def thetaE (B : Base) (i : ℕ) : Expr :=
  if isP (B.ty i) then B.dh.e (i * 4 + 3) 0 else Expr.sadd (B.dh.e (i * 4 + 3) 0) (B.q.e i 0)
def dE (B : Base) (i : ℕ) : Expr :=
  if isP (B.ty i) then Expr.sadd (B.dh.e (i * 4 + 2) 0) (B.q.e i 0) else B.dh.e (i * 4 + 2) 0

/-- Rotation and translation of link `i` (values). -/
def linkRot (B : Base) (ρ : Var → ℝ) (i : ℕ) : Matrix (Fin 3) (Fin 3) ℝ :=
  rX (ang ρ (B.alphaE i)) * rZ (ang ρ (B.thetaE i))
def linkTra (B : Base) (ρ : Var → ℝ) (i : ℕ) : Fin 3 → ℝ :=
  rX (ang ρ (B.alphaE i)) *ᵥ ![0, 0, Expr.eval ρ (B.dE i)] + ![Expr.eval ρ (B.dh.e (i * 4) 0), 0, 0]

/-- Rotation and translation expressions of link `i`. -/
def linkR (B : Base) (i : ℕ) : SX := SX.mtimes (rotX (B.alphaE i)) (rotZ (B.thetaE i))
def linkP (B : Base) (i : ℕ) : SX :=
  SX.add (SX.mtimes (rotX (B.alphaE i)) (col3 (.const 0) (.const 0) (B.dE i)))
    (col3 (B.dh.e (i * 4) 0) (.const 0) (.const 0))

theorem Ti_isHomOf (B : Base) (i : ℕ) : IsHomOf (B.Ti (i + 1)) (B.linkR i) (B.linkP i) where
  rows := rfl
  cols := rfl
  e := by simp [Ti, dhTemplate, SX.block, linkR, linkP, alphaE, thetaE, dE]

theorem getTransform_isHomOf (F : SX) : IsHomOf (getTransform F)
    (SX.mtimes (SX.mtimes (rotZ (F.e 3 0)) (rotY (F.e 4 0))) (rotX (F.e 5 0))) (SX.block F 0 3 0 1) where
  rows := rfl
  cols := rfl
  e := rfl

theorem val_linkR (i) : SX.val ρ (B.linkR i) 3 3 = B.linkRot ρ i := by
  rw [linkR, SX.val_mtimes ρ _ _ 3 3 3 rfl, val_rotX, val_rotZ]; rfl

theorem vec_linkP (i) : SX.vec ρ (B.linkP i) 3 = B.linkTra ρ i := by
  rw [linkP, SX.vec_add, SX.vec_mtimes ρ _ _ 3 3 rfl, val_rotX, vec_col3, vec_col3]; simp [linkTra]

theorem T0_cols (B : Base) (i) : (B.T0 i).cols = 4 := by
  cases i <;> rfl
theorem T0_rows (B : Base) (i) : (B.T0 i).rows = 4 := by
  induction i with
  | zero => rfl
  | succ i ih => exact ih

theorem R0_eq (B : Base) (i) : B.R0 i = rotB (B.T0 i) := rfl
theorem P0_eq (B : Base) (i) : B.P0 i = traB (B.T0 i) := rfl

theorem val_R0_succ (i) : SX.val ρ (B.R0 (i + 1)) 3 3 = SX.val ρ (B.R0 i) 3 3 * B.linkRot ρ i := by
  rw [R0_eq, R0_eq, ← val_linkR]
  exact val_rotB_mtimes (B.Ti_isHomOf i) (B.T0_cols i) ρ

theorem vec_P0_succ (i) :
    SX.vec ρ (B.P0 (i + 1)) 3 = SX.val ρ (B.R0 i) 3 3 *ᵥ B.linkTra ρ i + SX.vec ρ (B.P0 i) 3 := by
  rw [R0_eq, P0_eq, P0_eq, ← vec_linkP]
  exact vec_traB_mtimes (B.Ti_isHomOf i) (B.T0_cols i) ρ

theorem isHom_T0 (i) : IsHom ρ (B.T0 i) := by
  induction i with
  | zero => exact (getTransform_isHomOf B.w2l).isHom ρ
  | succ i ih => exact isHom_mtimes (B.Ti_isHomOf i) (B.T0_cols i) ρ ih

/-! Rotations -/

omit [Fl] in
theorem isRot_rX {t : ℝ × ℝ} (h : t.1 ^ 2 + t.2 ^ 2 = 1) : IsRot (rX t) := isRot_x h
omit [Fl] in
theorem isRot_rY {t : ℝ × ℝ} (h : t.1 ^ 2 + t.2 ^ 2 = 1) : IsRot (rY t) := isRot_y h
omit [Fl] in
theorem isRot_rZ {t : ℝ × ℝ} (h : t.1 ^ 2 + t.2 ^ 2 = 1) : IsRot (rZ t) := isRot_z h

theorem val_rot_getTransform (F : SX) : SX.val ρ (rotB (getTransform F)) 3 3 =
    rZ (ang ρ (F.e 3 0)) * rY (ang ρ (F.e 4 0)) * rX (ang ρ (F.e 5 0)) := by
  rw [(getTransform_isHomOf F).val_rot, SX.val_mtimes ρ _ _ 3 3 3 rfl, SX.val_mtimes ρ _ _ 3 3 3 rfl, val_rotX, val_rotY,
    val_rotZ]

theorem isRot_getTransform {F : SX} (h : ∀ k, 3 ≤ k → k < 6 → ∀ c, F.e k 0 = .const c → UnitAngle c) :
    IsRot (SX.val ρ (rotB (getTransform F)) 3 3) := by
  rw [val_rot_getTransform]
  exact ((isRot_rZ (ang_unit (h 3 (by omega) (by omega)))).mul (isRot_rY (ang_unit (h 4 (by omega) (by omega))))).mul
    (isRot_rX (ang_unit (h 5 (by omega) (by omega))))

omit [Fl] in
include hB in
theorem q_e {i : ℕ} (hi : i < B.n) : B.q.e i 0 = .var ⟨"q", i⟩ := by
  rw [hB.q]; simp [SX.sym, hi]

omit [Fl] in
include hB in
theorem thetaE_notConst {i : ℕ} (hi : i < B.n) (h : ¬ isP (B.ty i)) : NotConst (B.thetaE i) := by
  rw [thetaE, if_neg h, q_e hB hi]
  exact notConst_sadd_var _ _

include hB in
theorem isRot_linkRot (hU : B.UnitAngles) {i : ℕ} (hi : i < B.n) : IsRot (B.linkRot ρ i) := by
  refine (isRot_rX (ang_unit fun c hc => hU c (.inl ⟨i, hi, .inl hc⟩))).mul (isRot_rZ (ang_unit fun c hc => ?_))
  by_cases hP : isP (B.ty i)
  · rw [thetaE, if_pos hP] at hc
    exact hU c (.inl ⟨i, hi, .inr ⟨hP, hc⟩⟩)
  · exact absurd hc (thetaE_notConst hB hi hP c)

include hB in
theorem isRot_R0 (hU : B.UnitAngles) {i : ℕ} (hi : i ≤ B.n) : IsRot (SX.val ρ (B.R0 i) 3 3) := by
  induction i with
  | zero => exact isRot_getTransform ρ fun k h1 h2 c hc => hU c (.inr ⟨k, h1, h2, .inl hc⟩)
  | succ i ih =>
    rw [val_R0_succ]
    exact (ih (by omega)).mul (isRot_linkRot hB ρ hU (by omega))

/-! Directional derivatives along the joint coordinates -/

/-- Joint velocity component of a direction. -/
def sp (δ : Var → ℝ) (i : ℕ) : ℝ := δ ⟨"q", i⟩

/-- Joint axis `k_i` (value). -/
def axis (B : Base) (ρ : Var → ℝ) (i : ℕ) : Fin 3 → ℝ := SX.val ρ (B.R0 i) 3 3 *ᵥ e3

theorem vec_K0 (i) : SX.vec ρ (B.K0 i) 3 = B.axis ρ i := by
  ext a
  simp [K0, axis, R0, SX.block, mulVec, dotProduct, Fin.sum_univ_three, e3]

/-- `1` for a revolute joint, `0` for a prismatic one. -/
def rev (B : Base) (i : ℕ) : ℝ := if isP (B.ty i) then 0 else 1
/-- `1` for a prismatic joint, `0` for a revolute one. -/
def pri (B : Base) (i : ℕ) : ℝ := if isP (B.ty i) then 1 else 0

include hB in
theorem dval_linkR (hδ : QDir δ) {i : ℕ} (hi : i < B.n) :
    SX.dval ρ δ (B.linkR i) 3 3 = (sp δ i * B.rev i) • (B.linkRot ρ i * hat e3) := by
  have h1 : Expr.dir ρ δ (B.alphaE i) = 0 := hB.dh.dir hδ (by decide) ρ _ _
  rw [linkR, SX.dval_mtimes ρ δ _ _ 3 3 3 rfl, dval_rotX ρ δ _ h1, Matrix.zero_mul, zero_add, val_rotX, dval_rotZ,
    Matrix.mul_smul, ← Matrix.mul_assoc]
  congr 1
  simp only [thetaE, rev]
  split_ifs with hP
  · rw [hB.dh.dir hδ (by decide)]; simp
  · rw [Expr.dir_sadd, hB.dh.dir hδ (by decide), q_e hB hi]; simp [sp]

include hB in
theorem dvec_linkP (hδ : QDir δ) {i : ℕ} (hi : i < B.n) :
    SX.dvec ρ δ (B.linkP i) 3 = (sp δ i * B.pri i) • (B.linkRot ρ i *ᵥ e3) := by
  have h1 : Expr.dir ρ δ (B.alphaE i) = 0 := hB.dh.dir hδ (by decide) ρ _ _
  have h2 : Expr.dir ρ δ (B.dh.e (i * 4) 0) = 0 := hB.dh.dir hδ (by decide) ρ _ _
  have h3 : Expr.dir ρ δ (B.dE i) = sp δ i * B.pri i := by
    simp only [dE, pri]
    split_ifs with hP
    · rw [Expr.dir_sadd, hB.dh.dir hδ (by decide), q_e hB hi]; simp [sp]
    · rw [hB.dh.dir hδ (by decide)]; simp
  rw [linkP, SX.dvec_add, SX.dvec_mtimes ρ δ _ _ 3 3 rfl, dval_rotX ρ δ _ h1, Matrix.zero_mulVec, zero_add, val_rotX,
    dvec_col3, dvec_col3, h2, h3, linkRot, ← Matrix.mulVec_mulVec, rZ_e3, ← Matrix.mulVec_smul]
  simp only [Expr.dir_const]
  have e1 : (![0, 0, 0] : Fin 3 → ℝ) = 0 := by ext i; fin_cases i <;> rfl
  have e2 : (![0, 0, sp δ i * B.pri i] : Fin 3 → ℝ) = (sp δ i * B.pri i) • e3 := by
    ext i; fin_cases i <;> simp [e3]
  rw [e1, e2, add_zero]

omit [Fl] in
theorem dval_block_zero {A : SX} {S : Set Var} (hA : SX.Over S A) (h : ∀ v ∈ S, δ v = 0) (m n) :
    SX.dval ρ δ A m n = 0 := SX.dval_eq_zero hA h m n

theorem fv_zis_ccos (t : Expr) : Expr.fv (zis (ccos t)) ⊆ Expr.fv t := by
  cases t <;> simp [ccos, zis, Expr.fv]
  split_ifs <;> simp
theorem fv_zis_csin (t : Expr) : Expr.fv (zis (csin t)) ⊆ Expr.fv t := by
  cases t <;> simp [csin, zis, Expr.fv]
  split_ifs <;> simp
theorem fv_zis_cneg_csin (t : Expr) : Expr.fv (zis (cneg (csin t))) ⊆ Expr.fv t := by
  cases t <;> simp [csin, cneg, zis, Expr.fv]
  split_ifs <;> simp

omit [Fl] in
theorem over_mat33 {S : Set Var} {a b c d e f g h i : Expr} (ha : a.fv ⊆ S) (hb : b.fv ⊆ S) (hc : c.fv ⊆ S) (hd : d.fv ⊆ S)
    (he : e.fv ⊆ S) (hf : f.fv ⊆ S) (hg : g.fv ⊆ S) (hh : h.fv ⊆ S) (hi : i.fv ⊆ S) :
    SX.Over S (mat33 a b c d e f g h i) := by
  intro r s
  simp only [mat33]
  split <;> first | assumption | simp

omit [Fl] in
theorem over_col3 {S : Set Var} {a b c : Expr} (ha : a.fv ⊆ S) (hb : b.fv ⊆ S) (hc : c.fv ⊆ S) : SX.Over S (col3 a b c) := by
  intro r s
  simp only [col3]
  split <;> first | assumption | simp

theorem over_rotX {S : Set Var} {t : Expr} (h : t.fv ⊆ S) : SX.Over S (rotX t) := by
  have h1 := (fv_zis_ccos t).trans h
  have h2 := (fv_zis_csin t).trans h
  have h3 := (fv_zis_cneg_csin t).trans h
  apply over_mat33 <;> first | assumption | simp
theorem over_rotY {S : Set Var} {t : Expr} (h : t.fv ⊆ S) : SX.Over S (rotY t) := by
  have h1 := (fv_zis_ccos t).trans h
  have h2 := (fv_zis_csin t).trans h
  have h3 := (fv_zis_cneg_csin t).trans h
  apply over_mat33 <;> first | assumption | simp
theorem over_rotZ {S : Set Var} {t : Expr} (h : t.fv ⊆ S) : SX.Over S (rotZ t) := by
  have h1 := (fv_zis_ccos t).trans h
  have h2 := (fv_zis_csin t).trans h
  have h3 := (fv_zis_cneg_csin t).trans h
  apply over_mat33 <;> first | assumption | simp

omit [Fl] in
theorem over_homog {S : Set Var} {R p : SX} (hR : SX.Over S R) (hp : SX.Over S p) : SX.Over S (homog R p) := by
  intro i j
  simp only [homog]
  split_ifs
  · exact hR _ _
  · exact hp _ _
  · simp
  · simp

theorem over_getTransform {S : Set Var} {F : SX} (h : SX.Over S F) : SX.Over S (getTransform F) :=
  over_homog (((over_rotZ (h _ _)).mtimes (over_rotY (h _ _))).mtimes (over_rotX (h _ _))) (h.block _ _ _ _)

omit [Fl] in
theorem over_rotB {S : Set Var} {A : SX} (h : SX.Over S A) : SX.Over S (rotB A) := h.block _ _ _ _
omit [Fl] in
theorem over_traB {S : Set Var} {A : SX} (h : SX.Over S A) : SX.Over S (traB A) := h.block _ _ _ _

/-- Angular velocity of frame `i` for a direction. -/
def omega (B : Base) (ρ δ : Var → ℝ) (i : ℕ) : Fin 3 → ℝ :=
  ∑ j ∈ Finset.range i, (sp δ j * B.rev j) • B.axis ρ (j + 1)

/-- Linear velocity, for a direction, of the point `p` carried by frame `i`. -/
def velo (B : Base) (ρ δ : Var → ℝ) (i : ℕ) (p : Fin 3 → ℝ) : Fin 3 → ℝ :=
  ∑ j ∈ Finset.range i, sp δ j • (B.pri j • B.axis ρ (j + 1) +
    B.rev j • (hat (B.axis ρ (j + 1)) *ᵥ (p - SX.vec ρ (B.P0 (j + 1)) 3)))

include hB in
theorem dval_R0 (hU : B.UnitAngles) (hδ : QDir δ) {i : ℕ} (hi : i ≤ B.n) :
    SX.dval ρ δ (B.R0 i) 3 3 = hat (B.omega ρ δ i) * SX.val ρ (B.R0 i) 3 3 := by
  induction i with
  | zero =>
    have : SX.dval ρ δ (B.R0 0) 3 3 = 0 :=
      SX.dval_eq_zero (over_rotB (over_getTransform hB.w2l.over))
        (fun v hv => hδ v (by rw [hv.1]; decide)) 3 3
    simp [this, omega]
  | succ i ih =>
    have hd := dval_rotB_mtimes (B.Ti_isHomOf i) (B.T0_cols i) ρ δ
    change SX.dval ρ δ (B.R0 (i + 1)) 3 3 = _ at hd
    rw [hd, ← R0_eq, ih (by omega), val_linkR, dval_linkR hB ρ δ hδ (by omega), Matrix.mul_smul, ← Matrix.mul_assoc,
      ← val_R0_succ, (isRot_R0 hB ρ hU hi).mul_hat, Matrix.mul_assoc, ← val_R0_succ, ← Matrix.smul_mul, ← hat_smul,
      ← Matrix.add_mul, ← hat_add, omega, omega, Finset.sum_range_succ]
    rfl

include hB in
theorem dvec_P0 (hU : B.UnitAngles) (hδ : QDir δ) {i : ℕ} (hi : i ≤ B.n) :
    SX.dvec ρ δ (B.P0 i) 3 = B.velo ρ δ i (SX.vec ρ (B.P0 i) 3) := by
  induction i with
  | zero =>
    ext a
    rw [P0_eq, dvec_traB_apply]
    simp only [velo, Finset.range_zero, Finset.sum_empty, Pi.zero_apply]
    exact Expr.dir_eq_zero fun v hv => hδ v (by
      rw [(over_getTransform hB.w2l.over _ _ hv).1]; decide)
  | succ i ih =>
    have hd := dvec_traB_mtimes (B.Ti_isHomOf i) (B.T0_cols i) ρ δ
    change SX.dvec ρ δ (B.P0 (i + 1)) 3 = _ at hd
    rw [hd, ← R0_eq, ← P0_eq, dval_R0 hB ρ δ hU hδ (by omega), ih (by omega), vec_linkP, dvec_linkP hB ρ δ hδ (by omega),
      velo, velo, Finset.sum_range_succ, ← Matrix.mulVec_mulVec]
    have hp : SX.val ρ (B.R0 i) 3 3 *ᵥ B.linkTra ρ i = SX.vec ρ (B.P0 (i + 1)) 3 - SX.vec ρ (B.P0 i) 3 := by
      rw [vec_P0_succ]; abel
    have hk : SX.val ρ (B.R0 i) 3 3 *ᵥ ((sp δ i * B.pri i) • (B.linkRot ρ i *ᵥ e3)) =
        (sp δ i * B.pri i) • B.axis ρ (i + 1) := by
      rw [Matrix.mulVec_smul, Matrix.mulVec_mulVec, ← val_R0_succ]; rfl
    rw [hp, hk, sub_self, Matrix.mulVec_zero, smul_zero, add_zero, omega, hat_sum, Matrix.sum_mulVec]
    have : ∀ a b c : Fin 3 → ℝ, a + b + c = (a + c) + b := fun a b c => by abel
    rw [this, ← Finset.sum_add_distrib, smul_smul]
    congr 1
    refine Finset.sum_congr rfl fun j _ => ?_
    rw [hat_smul, Matrix.smul_mulVec, mul_smul, ← smul_add]
    congr 1
    rw [Matrix.mulVec_sub, Matrix.mulVec_sub, Matrix.mulVec_sub]
    simp only [smul_sub]
    abel

end Base

end

end Thunder
