import Verif.Lemmas.DriftDer
import Verif.Lemmas.SystemDyn

/-!
# Tool frame, Jacobians and Coriolis matrix of two chains whose angles differ slightly; comparison of a file with its exact mechanism
-/

open Matrix

namespace Thunder

noncomputable section

open Spec Robot

set_option linter.unusedSectionVars false

variable [Fl]

theorem NearV.apply {u : ℝ} {m : ℕ} {L : ℝ} {v' v : Fin 3 → ℝ} (h : NearV u m L v' v) (a : Fin 3) : |v' a - v a| ≤ gap u m * L :=
  (abs_le_len (v' - v) a).trans h.diff

theorem NearM.apply {u : ℝ} {m : ℕ} {L : ℝ} {A' A : Matrix (Fin 3) (Fin 3) ℝ} (h : NearM u m L A' A) (a b : Fin 3) : |A' a b - A a b| ≤ gap u m * L := by
  have h1 := (abs_le_len ((A' - A) *ᵥ Pi.single b 1) a).trans (h.diff _)
  have h2 : len (Pi.single b (1 : ℝ)) = 1 := by rw [len, single_dotProduct, Pi.single_eq_same]; norm_num
  rw [h2, mul_one, mulVec_single_one] at h1
  exact h1

/-! ### Two chains -/

namespace Close

variable {u : ℝ} (hu : 0 ≤ u) {B B₀ : Base} {ρ ρ₀ : Var → ℝ} (h : Close u B ρ B₀ ρ₀)
include h hu

omit hu in
theorem tool_pos : SX.vec ρ (traB (getTransform B.ee)) 3 = SX.vec ρ₀ (traB (getTransform B₀.ee)) 3 := by
  ext a
  rw [(Base.getTransform_isHomOf B.ee).vec_tra, (Base.getTransform_isHomOf B₀.ee).vec_tra]
  have := h.toolP a a.2
  simpa [SX.block] using this

theorem toolR : NearM u (2 * B.n + 6) 1 (SX.val ρ (rotB B.T0ee) 3 3) (SX.val ρ₀ (rotB B₀.T0ee) 3 3) := by
  rw [Base.T0ee_rot, Base.T0ee_rot, h.n]
  have := (h.R hu (le_refl B.n)).mul hu (h.frame0 hu h.tool)
  rw [one_mul] at this
  exact this.mono hu (by omega) le_rfl

theorem toolP_near : NearV u (2 * B.n + 3) (len (SX.vec ρ (traB (getTransform B.ee)) 3) + (len (B.posV ρ 0) + ∑ k ∈ Finset.range B.n, B.off ρ k))
    (SX.vec ρ (traB B.T0ee) 3) (SX.vec ρ₀ (traB B₀.T0ee) 3) := by
  rw [Base.T0ee_tra, Base.T0ee_tra, h.n, ← h.tool_pos]
  have := (h.R hu (le_refl B.n)).mulVec hu (nearV_self (u := u) (le_refl (len (SX.vec ρ (traB (getTransform B.ee)) 3))))
  rw [one_mul] at this
  exact this.add (h.P hu le_rfl)

/-- Columns of the Jacobians of the frames. -/
def _root_.Thunder.Base.fcol (B : Base) (ρ : Var → ℝ) (i a : ℕ) : Fin 3 → ℝ := if a ≤ i then SX.vec ρ (B.posCol (B.P0 (i + 1)) a) 3 else 0

omit h hu in
theorem val_Jv {i : ℕ} (hi : i < B.n) (a : Fin 3) (j : Fin B.n) : SX.val ρ (B.Jv i) 3 B.n a j = B.fcol ρ i j a := by
  rw [Base.Jv, if_neg (by omega), Base.imod_of_lt hi, Base.val_posJac, Base.fcol]
  split_ifs <;> rfl
omit h hu in
theorem val_Jw {i : ℕ} (a : Fin 3) (j : Fin B.n) : SX.val ρ (B.Jw i) 3 B.n a j = B.ocol ρ (B.imod i) j a := by
  rw [Base.Jw, Base.val_orJac, Base.ocol]
  split_ifs <;> rfl
omit h hu in
theorem val_Jvn (hB : B.WF) (a : Fin 3) (j : Fin B.n) : SX.val ρ (B.Jv B.n) 3 B.n a j =
    (B.fcol ρ (B.n - 1) j - (B.rotV ρ B.n * (hat (SX.vec ρ (traB (getTransform B.ee)) 3) * (B.rotV ρ B.n)ᵀ)) *ᵥ B.ocol ρ (B.n - 1) j) a := by
  have hn1 : B.n - 1 + 1 = B.n := by have := hB.npos; omega
  have e := Base.col_mul (B.rotV ρ B.n * (hat (SX.vec ρ (traB (getTransform B.ee)) 3) * (B.rotV ρ B.n)ᵀ)) (SX.val ρ (B.orJac (B.n - 1)) 3 B.n) j
  have e' : (fun x => SX.val ρ (B.orJac (B.n - 1)) 3 B.n x j) = B.ocol ρ (B.n - 1) j := Base.col_jw ρ (B.n - 1) j
  rw [e'] at e
  rw [Base.Jv, if_pos rfl, Base.imod_n, hn1]
  simp only
  rw [SX.val_sub, SX.val_mtimes ρ _ _ 3 3 B.n rfl, SX.val_mtimes ρ _ _ 3 3 3 rfl, SX.val_mtimes ρ _ _ 3 3 3 rfl, val_hatX, SX.val_transp,
    Matrix.sub_apply, Pi.sub_apply, ← e, Matrix.mul_assoc (SX.val ρ (B.R0 B.n) 3 3)]
  congr 1
  rw [Base.val_posJac, Base.fcol, hn1]
  split_ifs <;> rfl

theorem fcol {i : ℕ} (hi : i < B.n) (a : ℕ) : NearV u (2 * (2 * B.n + 3)) (1 + ∑ k ∈ Finset.range (i + 1), B.off ρ k) (B.fcol ρ i a) (B₀.fcol ρ₀ i a) := by
  have h0 := sum_off_nonneg B ρ (Finset.range (i + 1))
  unfold Base.fcol
  split_ifs with ha
  · have h1 := (h.span hu (show a + 1 ≤ i + 1 by omega) (show i + 1 ≤ B.n by omega)).mono hu le_rfl
      (Finset.sum_le_sum_of_subset_of_nonneg (t := Finset.range (i + 1))
        (fun k hk => by rw [Finset.mem_range]; exact (Finset.mem_Ico.1 hk).2) fun k _ _ => off_nonneg B ρ k)
    exact (h.posCol hu (O := B.P0 (i + 1)) (O₀ := B₀.P0 (i + 1)) (j := a) (by omega) h0 h1).mono hu (by omega) le_rfl
  · exact (nearV_zero hu).mono hu le_rfl (by linarith)

theorem toolCol (a : ℕ) : NearV u (3 * (2 * B.n + 3)) (1 + ∑ k ∈ Finset.range B.n, B.off ρ k + len (SX.vec ρ (traB (getTransform B.ee)) 3))
    (B.fcol ρ (B.n - 1) a - (B.rotV ρ B.n * (hat (SX.vec ρ (traB (getTransform B.ee)) 3) * (B.rotV ρ B.n)ᵀ)) *ᵥ B.ocol ρ (B.n - 1) a)
    (B₀.fcol ρ₀ (B₀.n - 1) a -
      (B₀.rotV ρ₀ B₀.n * (hat (SX.vec ρ₀ (traB (getTransform B₀.ee)) 3) * (B₀.rotV ρ₀ B₀.n)ᵀ)) *ᵥ B₀.ocol ρ₀ (B₀.n - 1) a) := by
  have hp := h.wf.npos
  have hn1 : B.n - 1 + 1 = B.n := by omega
  rw [h.n, ← h.tool_pos]
  have hR := h.R hu (le_refl B.n)
  have h1 := h.fcol hu (i := B.n - 1) (by omega) a
  rw [hn1] at h1
  have h2 := (hR.mul hu ((nearM_self (u := u) (len_nonneg _) fun x => len_hat_le (SX.vec ρ (traB (getTransform B.ee)) 3) x).mul hu
    (hR.transpose hu))).mulVec hu (h.ocol hu (i := B.n - 1) (by omega) a)
  rw [one_mul, mul_one, mul_one] at h2
  exact (h1.mono hu (by omega) le_rfl).sub (h2.mono hu (by omega) le_rfl)

/-- The Coriolis matrix. -/
theorem C (hdq : ∀ i : Fin B.n, ρ₀ ⟨"dq", i⟩ = ρ ⟨"dq", i⟩) (a b : Fin B.n) :
    NearS u (4 * (2 * B.n + 3)) (3 / 2 * B.dsize ρ * ∑ i : Fin B.n, |ρ ⟨"dq", i⟩|)
      (SX.val ρ B.C B.n B.n a b) (SX.val ρ₀ B₀.C B.n B.n a b) := by
  have e : SX.val ρ₀ B₀.C B.n B.n a b =
      (∑ i : Fin B.n, pd ρ₀ B₀.M a b i * ρ ⟨"dq", i⟩ + ∑ i : Fin B.n, pd ρ₀ B₀.M a i b * ρ ⟨"dq", i⟩
        - ∑ i : Fin B.n, pd ρ₀ B₀.M b i a * ρ ⟨"dq", i⟩) / 2 := by
    have e := Base.val_C (B := B₀) ρ₀ h.wf₀ (a := Fin.cast h.n.symm a) (k := Fin.cast h.n.symm b)
    have hs : ∀ (f : ℕ → ℝ) , ∑ i : Fin B₀.n, f i * ρ₀ ⟨"dq", i⟩ = ∑ i : Fin B.n, f i * ρ ⟨"dq", i⟩ := by
      intro f
      rw [← Finset.sum_range (fun i => f i * ρ₀ ⟨"dq", i⟩), h.n, Finset.sum_range]
      exact Finset.sum_congr rfl fun i _ => by rw [hdq]
    rw [hs fun i => pd ρ₀ B₀.M _ _ i, hs fun i => pd ρ₀ B₀.M _ i _, hs fun i => pd ρ₀ B₀.M _ i _] at e
    rw [SX.val_apply] at e ⊢
    exact e
  rw [Base.val_C (B := B) ρ h.wf, e]
  have key : ∀ {f f₀ : Fin B.n → ℝ}, (∀ i, NearS u (4 * (2 * B.n + 3)) (B.dsize ρ) (f i) (f₀ i)) →
      NearS u (4 * (2 * B.n + 3)) (B.dsize ρ * ∑ i : Fin B.n, |ρ ⟨"dq", i⟩|) (∑ i, f i * ρ ⟨"dq", i⟩) (∑ i, f₀ i * ρ ⟨"dq", i⟩) := by
    intro f f₀ hf
    rw [Finset.mul_sum]
    refine NearS.sum fun i _ => ?_
    have := (hf i).mul_left (ρ ⟨"dq", i⟩)
    rw [mul_comm (f i), mul_comm (f₀ i), mul_comm (B.dsize ρ)]
    exact this
  have h1 := ((key fun i => h.dM hu (k := i) a b).add (key fun i => h.dM hu (k := b) a i)).sub (key fun i => h.dM hu (k := a) b i)
  have h2 := h1.mul_left (1 / 2)
  have hd : ∀ x : ℝ, x / 2 = 1 / 2 * x := fun x => by ring
  rw [hd (_ - _), hd (_ - _)]
  refine h2.mono hu le_rfl (le_of_eq ?_)
  rw [abs_of_pos (by norm_num)]
  ring

end Close

/-! ### A file and its exact mechanism -/

section

variable {c : Conf} (s : State c)

/-- The same values of the variables. -/
def exactState : State (exact c) := ⟨s.q, s.dq, s.ddq, s.d3q, s.dqr, s.ddqr, s.w, s.x, s.dx, s.ddx⟩

theorem unit_exact (c : Conf) : UnitNumeric (exact c) := by
  rintro a (⟨i, -, h, -⟩ | ⟨i, -, -, h, -⟩ | ⟨i, -, -, ⟨h, -⟩ | ⟨h, -⟩⟩) <;> exact absurd h one_ne_zero
theorem exact_exact (c : Conf) : ExactNumeric (exact c) := by
  rintro a (⟨i, -, h, -⟩ | ⟨i, -, -, h, -⟩ | ⟨i, -, -, ⟨h, -⟩ | ⟨h, -⟩⟩) <;> exact absurd h one_ne_zero

omit [Fl] in
theorem abs_snap_sub {x y ε : ℝ} (h : |x - y| ≤ ε) : |snap x - y| ≤ ε + 1e-15 := by
  unfold snap
  split_ifs with hx
  · rw [zero_sub, abs_neg]
    have : |y| ≤ |x| + |x - y| := by
      have := abs_sub_abs_le_abs_sub y x
      rw [abs_sub_comm] at this
      linarith
    linarith
  · have : (0 : ℝ) ≤ 1e-15 := by norm_num
    linarith

omit [Fl] in
theorem turn_nonneg {ε : ℝ} (hε : 0 ≤ ε) : 0 ≤ turn ε := by
  have : (0 : ℝ) ≤ 1e-15 := by norm_num
  unfold turn
  linarith

omit [Fl] in
theorem pairNear_self (u a : ℝ) : PairNear u (cs a) (cs a) :=
  ⟨by rw [sub_self, sub_self]; simpa using sq_nonneg u, Real.cos_sq_add_sin_sq a⟩

theorem pair_angle {ε : ℝ} {flag : ℤ} {a : ℝ} (h : flag = 0 → |Fl.cosF a - Real.cos a| ≤ ε ∧ |Fl.sinF a - Real.sin a| ≤ ε) :
    PairNear (turn ε) (angleOf flag a) (angleOf 1 a) := by
  have h1 : angleOf 1 a = cs a := if_neg one_ne_zero
  rw [h1]
  by_cases hf : flag = 0
  · obtain ⟨hc, hs⟩ := h hf
    have hc := abs_le.1 (abs_snap_sub hc)
    have hs := abs_le.1 (abs_snap_sub hs)
    refine ⟨?_, Real.cos_sq_add_sin_sq a⟩
    rw [angleOf, if_pos hf]
    show (snap (Fl.cosF a) - Real.cos a) ^ 2 + (snap (Fl.sinF a) - Real.sin a) ^ 2 ≤ _
    have g1 := sq_le_sq' hc.1 hc.2
    have g2 := sq_le_sq' hs.1 hs.2
    unfold turn
    nlinarith [sq_nonneg (ε + 1e-15)]
  · rw [angleOf, if_neg hf]
    exact pairNear_self _ a

theorem close_exact (hn : 0 < c.n) (ht : Typed c) {ε : ℝ} (hc : CloseNumeric c ε) :
    Close (turn ε) (base c) (env c s) (base (exact c)) (env (exact c) (exactState s)) := by
  have hB := base_wf hn ht
  have hB₀ : (base (exact c)).WF := base_wf (c := exact c) hn ht
  have hq : ∀ i < c.n, Expr.eval (env c s) ((base c).q.e i 0) = Expr.eval (env (exact c) (exactState s)) ((base (exact c)).q.e i 0) := by
    intro i hi
    rw [Base.q_e hB hi, Base.q_e hB₀ hi]
    exact (env_q s hi).trans (env_q (c := exact c) (exactState s) hi).symm
  have hp : ∀ (k : Key), k.isVar = false → k.here c → k.here (exact c) → ∀ i < k.size c, k.size (exact c) = k.size c → k.val (exact c) = k.val c →
      Expr.eval (env c s) ((kmod c k).e i 0) = Expr.eval (env (exact c) (exactState s)) ((kmod (exact c) k).e i 0) := by
    intro k h1 h2 h3 i hi hsz hv
    rw [eval_par s h1 h2 hi, eval_par (c := exact c) (exactState s) h1 h3 (hsz ▸ hi), hv]
  have hdh : ∀ i < c.n * 4, Expr.eval (env c s) ((base c).dh.e i 0) = Expr.eval (env (exact c) (exactState s)) ((base (exact c)).dh.e i 0) :=
    fun i hi => hp .DH rfl trivial trivial i hi rfl rfl
  have hdyn : ∀ k < 10 * c.n, (base c).dynV (env c s) k = (base (exact c)).dynV (env (exact c) (exactState s)) k :=
    fun k hk => (dynV_env s hk).trans (dynV_env (c := exact c) (exactState s) hk).symm
  refine { wf := hB, wf₀ := hB₀, n := rfl, ty := fun i => rfl, alpha := fun i hi => ?_, theta := fun i hi => ?_, mount := fun k h3 h6 => ?_, tool := fun k h3 h6 => ?_, a := fun i hi => ?_, d := fun i hi => ?_, mountP := fun k hk => ?_, toolP := fun k hk => ?_, mass := fun i hi => ?_, com := fun i hi => ?_, inertia := fun i hi => ?_, g := ?_ }
  · have hi : i < c.n := hi
    have e1 := ang_par_state s (k := .DH) rfl trivial (show i * 4 + 1 < c.n * 4 by omega)
    have e2 := ang_par_state (c := exact c) (exactState s) (k := .DH) rfl trivial (show i * 4 + 1 < c.n * 4 by omega)
    refine (congrArg₂ (PairNear (turn ε)) e1 e2).mpr (pair_angle fun h0 => hc _ (.inl ⟨i, hi, ?_⟩))
    rw [Nat.mul_comm]
    exact ⟨h0, rfl⟩
  · have hi : i < c.n := hi
    by_cases hP : isP ((base c).ty i)
    · have hP' : isP ((base (exact c)).ty i) := hP
      have e1 := ang_par_state s (k := .DH) rfl trivial (show i * 4 + 3 < c.n * 4 by omega)
      have e2 := ang_par_state (c := exact c) (exactState s) (k := .DH) rfl trivial (show i * 4 + 3 < c.n * 4 by omega)
      unfold Base.thetaE
      rw [if_pos hP, if_pos hP']
      refine (congrArg₂ (PairNear (turn ε)) e1 e2).mpr (pair_angle fun h0 => hc _ (.inr (.inl ⟨i, hi, isP_iff.1 hP, ?_⟩)))
      rw [Nat.mul_comm]
      exact ⟨h0, rfl⟩
    · have hP' : ¬ isP ((base (exact c)).ty i) := hP
      have e : Expr.eval (env c s) ((base c).thetaE i) = Expr.eval (env (exact c) (exactState s)) ((base (exact c)).thetaE i) := by
        unfold Base.thetaE
        rw [if_neg hP, if_neg hP', Expr.eval_sadd, Expr.eval_sadd, hq i hi, hdh _ (by omega)]
      rw [ang_of_notConst (Base.thetaE_notConst hB hi hP), ang_of_notConst (Base.thetaE_notConst hB₀ hi hP'), e]
      exact pairNear_self _ _
  · have e1 := ang_par_state s (k := .W2L) rfl trivial (show k < 6 from h6)
    have e2 := ang_par_state (c := exact c) (exactState s) (k := .W2L) rfl trivial (show k < 6 from h6)
    exact (congrArg₂ (PairNear (turn ε)) e1 e2).mpr (pair_angle fun h0 => hc _ (.inr (.inr ⟨k, h3, h6, .inl ⟨h0, rfl⟩⟩)))
  · have e1 := ang_par_state s (k := .EE) rfl trivial (show k < 6 from h6)
    have e2 := ang_par_state (c := exact c) (exactState s) (k := .EE) rfl trivial (show k < 6 from h6)
    exact (congrArg₂ (PairNear (turn ε)) e1 e2).mpr (pair_angle fun h0 => hc _ (.inr (.inr ⟨k, h3, h6, .inr ⟨h0, rfl⟩⟩)))
  · exact hdh _ (by have : i < c.n := hi; omega)
  · have hi : i < c.n := hi
    unfold Base.dE
    by_cases hP : isP ((base c).ty i)
    · have hP' : isP ((base (exact c)).ty i) := hP
      rw [if_pos hP, if_pos hP', Expr.eval_sadd, Expr.eval_sadd, hq i hi, hdh _ (by omega)]
    · have hP' : ¬ isP ((base (exact c)).ty i) := hP
      rw [if_neg hP, if_neg hP']
      exact hdh _ (by omega)
  · exact hp .W2L rfl trivial trivial k (show k < 6 by omega) rfl rfl
  · exact hp .EE rfl trivial trivial k (show k < 6 by omega) rfl rfl
  · rw [Base.massV_eq, Base.massV_eq]; exact mass_congr hdyn hi
  · rw [Base.comV_eq, Base.comV_eq]; exact com_congr hdyn hi
  · rw [Base.inertiaV_eq, Base.inertiaV_eq]; exact inertia_congr hdyn hi
  · exact (gV_env s).trans (gV_env (c := exact c) (exactState s)).symm

end

end

end Thunder
