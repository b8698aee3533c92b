import Verif.Lemmas.DriftDyn

/-!
# The Coriolis terms of two chains whose angles differ slightly
-/

open Matrix

namespace Thunder

noncomputable section

open Spec

set_option linter.unusedSectionVars false

namespace Base

variable [Fl] {B : Base} (hB : B.WF) (ρ : Var → ℝ) {k : ℕ}

/-- The direction of the joint coordinate `k`. -/
abbrev qk (k : ℕ) : Var → ℝ := Expr.single ⟨"q", k⟩

omit [Fl] in
theorem qdir_qk (k : ℕ) : QDir (qk k) := fun v hv => Expr.single_ne fun e => hv (by rw [e])
omit [Fl] in
theorem sp_self (k : ℕ) : sp (qk k) k = 1 := Expr.single_same _
omit [Fl] in
theorem sp_ne {i : ℕ} (h : i ≠ k) : sp (qk k) i = 0 := Expr.single_ne fun e => h (by injection e)

/-- Derivatives of the frames. -/
def dR (B : Base) (ρ : Var → ℝ) (k i : ℕ) : Matrix (Fin 3) (Fin 3) ℝ := SX.dval ρ (qk k) (B.R0 i) 3 3
def dP (B : Base) (ρ : Var → ℝ) (k i : ℕ) : Fin 3 → ℝ := SX.dvec ρ (qk k) (B.P0 i) 3

include hB

theorem dR_succ {i : ℕ} (hi : i < B.n) : B.dR ρ k (i + 1) =
    B.dR ρ k i * B.linkRot ρ i + (sp (qk k) i * B.rev i) • (B.rotV ρ (i + 1) * hat e3) := by
  have hd := dval_rotB_mtimes (B.Ti_isHomOf i) (B.T0_cols i) ρ (qk k)
  change SX.dval ρ (qk k) (B.R0 (i + 1)) 3 3 = _ at hd
  rw [dR, hd, ← R0_eq, val_linkR, dval_linkR hB ρ _ (qdir_qk k) hi, Matrix.mul_smul, ← Matrix.mul_assoc, ← val_R0_succ]
  rfl

theorem dP_succ {i : ℕ} (hi : i < B.n) : B.dP ρ k (i + 1) =
    B.dR ρ k i *ᵥ B.linkTra ρ i + (sp (qk k) i * B.pri i) • B.axis ρ (i + 1) + B.dP ρ k i := by
  have hd := dvec_traB_mtimes (B.Ti_isHomOf i) (B.T0_cols i) ρ (qk k)
  change SX.dvec ρ (qk k) (B.P0 (i + 1)) 3 = _ at hd
  rw [dP, hd, ← R0_eq, vec_linkP, dvec_linkP hB ρ _ (qdir_qk k) hi, Matrix.mulVec_smul, Matrix.mulVec_mulVec, ← val_R0_succ]
  rfl

theorem dR_zero {i : ℕ} (hi : i ≤ B.n) (hk : i ≤ k) : B.dR ρ k i = 0 := by
  induction i with
  | zero =>
    exact SX.dval_eq_zero (over_rotB (over_getTransform hB.w2l.over)) (fun v hv => qdir_qk k v (by rw [hv.1]; decide)) 3 3
  | succ i ih => rw [dR_succ hB ρ hi, ih (by omega) (by omega), sp_ne (by omega), Matrix.zero_mul, zero_mul, zero_smul, add_zero]

theorem dP_zero {i : ℕ} (hi : i ≤ B.n) (hk : i ≤ k) : B.dP ρ k i = 0 := by
  induction i with
  | zero =>
    ext a
    show SX.dvec ρ (qk k) (traB (getTransform B.w2l)) 3 a = 0
    rw [dvec_traB_apply]
    exact Expr.dir_eq_zero fun v hv => qdir_qk k v (by rw [(over_getTransform hB.w2l.over _ _ hv).1]; decide)
  | succ i ih =>
    rw [dP_succ hB ρ hi, ih (by omega) (by omega), dR_zero hB ρ (by omega) (by omega), sp_ne (by omega), Matrix.zero_mulVec, zero_mul, zero_smul, add_zero,
      add_zero]

omit hB in
theorem dvec_K0 (i : ℕ) : SX.dvec ρ (qk k) (B.K0 i) 3 = B.dR ρ k i *ᵥ e3 := by
  ext a
  simp [K0, dR, R0, SX.block, mulVec, dotProduct, Fin.sum_univ_three, e3]

omit hB in
theorem dval_hatX (δ : Var → ℝ) (v : SX) : SX.dval ρ δ (hatX v) 3 3 = hat (SX.dvec ρ δ v 3) := by
  ext i j; fin_cases i <;> fin_cases j <;> simp [hatX, mat33, hat]

omit hB in
theorem dvec_posCol (O : SX) (j : ℕ) : SX.dvec ρ (qk k) (B.posCol O j) 3 =
    B.pri j • (B.dR ρ k (j + 1) *ᵥ e3) + B.rev j • (hat (B.dR ρ k (j + 1) *ᵥ e3) *ᵥ (SX.vec ρ O 3 - B.posV ρ (j + 1)) +
      hat (B.axis ρ (j + 1)) *ᵥ (SX.dvec ρ (qk k) O 3 - B.dP ρ k (j + 1))) := by
  unfold posCol pri rev
  split_ifs with h
  · simp [dvec_K0]
  · have := SX.dvec_mtimes ρ (qk k) (hatX (B.K0 (j + 1))) (SX.sub O (B.P0 (j + 1))) 3 3 rfl
    rw [val_hatX, vec_K0, dval_hatX, dvec_K0, SX.vec_sub, SX.dvec_sub] at this
    simp only [zero_smul, zero_add, one_smul]
    exact this

omit hB in
theorem dvec_orCol (j : ℕ) : SX.dvec ρ (qk k) (B.orCol j) 3 = B.rev j • (B.dR ρ k (j + 1) *ᵥ e3) := by
  unfold orCol rev
  split_ifs with h
  · ext a; simp [SX.zeros]
  · simp [dvec_K0]

theorem dvec_Ocm' (i : ℕ) : SX.dvec ρ (qk k) (B.Ocm i) 3 = B.dP ρ k (i + 1) + B.dR ρ k (i + 1) *ᵥ B.comV ρ i := by
  have hc : (B.R0 (i + 1)).cols = 3 := rfl
  rw [Ocm, SX.dvec_add, SX.dvec_mtimes ρ _ _ _ 3 3 hc, dvec_com ρ _ hB (qdir_qk k), Matrix.mulVec_zero, add_zero]
  rfl

end Base

namespace Close

variable {u : ℝ} (hu : 0 ≤ u) [Fl] {B B₀ : Base} {ρ ρ₀ : Var → ℝ} (h : Close u B ρ B₀ ρ₀) {k : ℕ}
include h hu

theorem dR {i : ℕ} (hi : i ≤ B.n) : NearM u (2 * i + 3) 1 (B.dR ρ k i) (B₀.dR ρ₀ k i) := by
  induction i with
  | zero =>
    rw [Base.dR_zero h.wf ρ hi (Nat.zero_le _), Base.dR_zero h.wf₀ ρ₀ (Nat.zero_le _) (Nat.zero_le _)]
    exact (nearM_zero hu).mono hu le_rfl zero_le_one
  | succ i ih =>
    have hi₀ : i < B₀.n := by rw [h.n]; omega
    rw [Base.dR_succ h.wf ρ hi, Base.dR_succ h.wf₀ ρ₀ hi₀]
    by_cases hk : i = k
    · subst hk
      rw [Base.dR_zero h.wf ρ (by omega) le_rfl, Base.dR_zero h.wf₀ ρ₀ hi₀.le le_rfl, Matrix.zero_mul, Matrix.zero_mul, zero_add, zero_add, h.rev,
        Base.sp_self, one_mul]
      have := ((h.R hu hi).mul hu nearM_hat_e3).smul (B.rev i)
      rw [one_mul, mul_one] at this
      refine this.mono hu (by omega) ?_
      rcases h.zero_or hu i with ⟨-, e⟩ | ⟨-, e⟩ <;> rw [e] <;> norm_num
    · rw [Base.sp_ne hk, zero_mul, zero_mul, zero_smul, zero_smul, add_zero, add_zero]
      have := (ih (by omega)).mul hu (h.link hu (i := i) (by omega))
      rw [one_mul] at this
      exact this.mono hu (by omega) le_rfl

theorem daxis {i : ℕ} (hi : i ≤ B.n) : NearV u (2 * i + 3) 1 (B.dR ρ k i *ᵥ e3) (B₀.dR ρ₀ k i *ᵥ e3) := by
  have := (h.dR hu (k := k) hi).mulVec hu nearV_e3
  rwa [one_mul] at this

theorem dP {i : ℕ} (hi : i ≤ B.n) : NearV u (2 * i + 3) ((if i ≤ k then 0 else 1) + ∑ l ∈ Finset.range i, B.off ρ l) (B.dP ρ k i) (B₀.dP ρ₀ k i) := by
  induction i with
  | zero =>
    rw [Base.dP_zero h.wf ρ hi (Nat.zero_le _), Base.dP_zero h.wf₀ ρ₀ (Nat.zero_le _) (Nat.zero_le _)]
    refine (nearV_zero hu).mono hu le_rfl (by simp)
  | succ i ih =>
    have hi₀ : i < B₀.n := by rw [h.n]; omega
    have ho := off_nonneg B ρ i
    by_cases hk : i + 1 ≤ k
    · rw [Base.dP_zero h.wf ρ hi hk, Base.dP_zero h.wf₀ ρ₀ hi₀ hk, if_pos hk]
      exact (nearV_zero hu).mono hu le_rfl (by rw [zero_add]; exact sum_off_nonneg B ρ _)
    · rw [Base.dP_succ h.wf ρ hi, Base.dP_succ h.wf₀ ρ₀ hi₀, if_neg hk, Finset.sum_range_succ]
      by_cases hk' : i = k
      · subst hk'
        rw [Base.dP_zero h.wf ρ (by omega) le_rfl, Base.dP_zero h.wf₀ ρ₀ hi₀.le le_rfl, Base.dR_zero h.wf ρ (by omega) le_rfl,
          Base.dR_zero h.wf₀ ρ₀ hi₀.le le_rfl, Matrix.zero_mulVec, Matrix.zero_mulVec, zero_add, zero_add, add_zero, add_zero, h.pri, Base.sp_self, one_mul]
        have := (h.axis hu hi).smul (B.pri i)
        refine this.mono hu le_rfl ?_
        have := sum_off_nonneg B ρ (Finset.range i)
        rcases h.zero_or hu i with ⟨e, -⟩ | ⟨e, -⟩ <;> rw [e] <;> norm_num <;> linarith
      · rw [Base.sp_ne hk', zero_mul, zero_mul, zero_smul, zero_smul, add_zero, add_zero]
        have h1 := (h.dR hu (k := k) (i := i) (by omega)).mulVec hu (h.tra hu (i := i) (by omega))
        rw [one_mul] at h1
        have h2 := ih (by omega)
        rw [if_neg (by omega)] at h2
        exact ((h1.mono hu (by omega) le_rfl).add (h2.mono hu (by omega) le_rfl)).mono hu le_rfl (by linarith)

theorem dpos {i j : ℕ} (hj : j ≤ i) (hi : i < B.n) : NearV u (2 * (i + 1) + 3) (2 * B.arm ρ i)
    (SX.dvec ρ (Base.qk k) (B.Ocm i) 3 - B.dP ρ k (j + 1)) (SX.dvec ρ₀ (Base.qk k) (B₀.Ocm i) 3 - B₀.dP ρ₀ k (j + 1)) := by
  have hl : ∀ j ≤ i, (if j + 1 ≤ k then 0 else 1) + ∑ l ∈ Finset.range (j + 1), B.off ρ l ≤ 1 + ∑ l ∈ Finset.range (i + 1), B.off ρ l := by
    intro j hj
    refine add_le_add (by split_ifs <;> norm_num) (Finset.sum_le_sum_of_subset_of_nonneg (fun l hl => ?_) fun l _ _ => off_nonneg B ρ l)
    rw [Finset.mem_range] at hl ⊢
    omega
  have h1 := (h.dP hu (k := k) (i := i + 1) hi).mono hu le_rfl (hl i le_rfl)
  have h2 := (h.dP hu (k := k) (i := j + 1) (by omega)).mono hu (show 2 * (j + 1) + 3 ≤ 2 * (i + 1) + 3 by omega) (hl j hj)
  have h3 := (h.dR hu (k := k) (i := i + 1) hi).mulVec hu (nearV_self (u := u) (le_refl (len (B.comV ρ i))))
  rw [one_mul] at h3
  rw [Base.dvec_Ocm' h.wf, Base.dvec_Ocm' h.wf₀, ← h.com i hi]
  refine ((h1.add (h3.mono hu (by omega) le_rfl)).sub h2).mono hu le_rfl ?_
  unfold Base.arm
  have := len_nonneg (B.comV ρ i)
  linarith

theorem dpcol {i : ℕ} (hi : i < B.n) (a : ℕ) : NearV u (2 * (2 * B.n + 3)) (3 * B.arm ρ i) (B.dpcol ρ (Base.qk k) i a) (B₀.dpcol ρ₀ (Base.qk k) i a) := by
  have ha1 := one_le_arm B ρ i
  unfold Base.dpcol
  split_ifs with ha
  · have h1 := h.daxis hu (k := k) (i := a + 1) (by omega)
    have h2 := h.axis hu (i := a + 1) (by omega)
    rw [Base.dvec_posCol, Base.dvec_posCol, h.rev, h.pri]
    rcases h.zero_or hu a with ⟨e1, e2⟩ | ⟨e1, e2⟩
    · rw [e1, e2, zero_smul, zero_add, one_smul, zero_smul, zero_add, one_smul]
      refine NearV.mono hu (NearV.add ((h1.hat hu (h.com_pos hu ha hi)).mono (k := 2 * (2 * B.n + 3)) hu (by omega) le_rfl)
        ((h2.hat hu (h.dpos hu (k := k) ha hi)).mono hu (by omega) le_rfl)) le_rfl ?_
      unfold Base.arm
      linarith [sum_off_nonneg B ρ (Finset.range (i + 1)), len_nonneg (B.comV ρ i)]
    · rw [e1, e2, zero_smul, add_zero, one_smul, zero_smul, add_zero, one_smul]
      exact h1.mono hu (by omega) (by linarith)
  · exact (nearV_zero hu).mono hu le_rfl (by linarith)

theorem docol {i : ℕ} (hi : i < B.n) (a : ℕ) : NearV u (2 * B.n + 3) 1 (B.docol ρ (Base.qk k) i a) (B₀.docol ρ₀ (Base.qk k) i a) := by
  unfold Base.docol
  split_ifs with ha
  · have h1 := (h.daxis hu (k := k) (i := a + 1) (by omega)).smul (B.rev a)
    rw [Base.dvec_orCol, Base.dvec_orCol, h.rev]
    refine h1.mono hu (by omega) ?_
    rcases h.zero_or hu a with ⟨-, e⟩ | ⟨-, e⟩ <;> rw [e] <;> norm_num
  · exact (nearV_zero hu).mono hu le_rfl zero_le_one

theorem dlcol {i : ℕ} (hi : i < B.n) (a : ℕ) : NearV u (2 * (2 * B.n + 3)) 2 (B.dlcol ρ (Base.qk k) i a) (B₀.dlcol ρ₀ (Base.qk k) i a) := by
  have h1 := ((h.dR hu (k := k) (i := i + 1) hi).transpose hu).mulVec hu (h.ocol hu hi a)
  have h2 := ((h.R hu (i := i + 1) hi).transpose hu).mulVec hu (h.docol hu (k := k) hi a)
  exact ((h1.mono hu (k := 2 * (2 * B.n + 3)) (by omega) le_rfl).add (h2.mono hu (by omega) le_rfl)).mono hu le_rfl (by norm_num)

/-- Size of the derivatives of the mass matrix. -/
def _root_.Thunder.Base.dsize (B : Base) (ρ : Var → ℝ) : ℝ :=
  ∑ i ∈ Finset.range B.n, (|B.massV ρ i| * (6 * B.arm ρ i ^ 2) + 4 * entries (B.inertiaV ρ i))

theorem dM (a b : Fin B.n) : NearS u (4 * (2 * B.n + 3)) (B.dsize ρ) (pd ρ B.M a b k) (pd ρ₀ B₀.M a b k) := by
  have e := Base.dM_apply (B := B₀) ρ₀ (Base.qk k) h.wf₀ (Base.qdir_qk k) (Fin.cast h.n.symm a) (Fin.cast h.n.symm b)
  simp only [Fin.val_cast, h.n] at e
  unfold pd
  rw [Base.dM_apply _ _ h.wf (Base.qdir_qk k), e]
  refine NearS.sum fun i hi => ?_
  have hi := Finset.mem_range.1 hi
  rw [← h.mass i hi, ← h.inertia i hi]
  have ha := h.pcol hu hi a
  have hb := h.pcol hu hi b
  have hda := h.dpcol hu (k := k) hi a
  have hdb := h.dpcol hu (k := k) hi b
  have la := h.lcol hu hi a
  have lb := h.lcol hu hi b
  have lda := h.dlcol hu (k := k) hi a
  have ldb := h.dlcol hu (k := k) hi b
  have hI := nearM_entries (u := u) (B.inertiaV ρ i)
  have h1 := ((hda.dot hu hb).add (ha.dot hu hdb)).mul_left (B.massV ρ i)
  have h2 := (lda.dot hu (hI.mulVec hu lb)).mono hu (show _ ≤ 4 * (2 * B.n + 3) by omega) le_rfl
  have h3 := (la.dot hu (hI.mulVec hu ldb)).mono hu (show _ ≤ 4 * (2 * B.n + 3) by omega) le_rfl
  exact (h1.mono hu (by omega) (le_of_eq (by ring))).add ((h2.add h3).mono hu le_rfl (le_of_eq (by ring)))

end Close

end

end Thunder
