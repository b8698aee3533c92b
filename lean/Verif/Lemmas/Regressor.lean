import Verif.Lemmas.Energy
import Verif.Lemmas.Smooth
import Verif.Lemmas.KinValues
import Verif.Model.Regressors
import Verif.Spec.Inertia
import Mathlib.Algebra.BigOperators.Field

/-!
# The mass matrix, Coriolis matrix and gravity vector are linear in the barycentric parameters
-/

set_option linter.unusedSectionVars false

open scoped Classical
open Matrix

namespace Thunder

noncomputable section

theorem sum_range_ten {M : Type*} [AddCommMonoid M] (g : ℕ → M) :
    ∑ l ∈ Finset.range 10, g l = g 0 + ∑ l : Fin 3, g (1 + l) + ∑ l : Fin 6, g (4 + l) := by
  have h : ∑ l ∈ Finset.range (1 + 3 + 6), g l = _ := Finset.sum_range_add g (1 + 3) 6
  rw [show (10 : ℕ) = 1 + 3 + 6 from rfl, h, Finset.sum_range_add, Finset.sum_range_one, Finset.sum_range, Finset.sum_range]

theorem val_matQ_sum (ρ : Var → ℝ) (c : Fin 3 → ℝ) : ∑ l : Fin 3, c l • SX.val ρ (matQ l) 3 3 = hat c := by
  ext a b
  simp only [Fin.sum_univ_three, Matrix.add_apply, Matrix.smul_apply, SX.val_apply]
  fin_cases a <;> fin_cases b <;> simp [matQ, mat33, hat]

/-- Symmetric matrix with the given upper triangle (row by row). -/
def symm6 (x : ℕ → ℝ) : Matrix (Fin 3) (Fin 3) ℝ := !![x 0, x 1, x 2; x 1, x 3, x 4; x 2, x 4, x 5]

theorem val_matE_sum (ρ : Var → ℝ) (x : ℕ → ℝ) : ∑ l : Fin 6, x l • SX.val ρ (matE l) 3 3 = symm6 x := by
  ext a b
  simp only [Fin.sum_univ_six, Matrix.add_apply, Matrix.smul_apply, SX.val_apply]
  fin_cases a <;> fin_cases b <;> simp [matE, mat33, symm6]

namespace Base

variable [Fl] {B : Base} (ρ δ : Var → ℝ)

/-- Values of the frame Jacobian blocks used by the regressor. -/
def yv (B : Base) (ρ : Var → ℝ) (i : ℕ) : Matrix (Fin 3) (Fin B.n) ℝ := SX.val ρ (B.Yv i) 3 B.n
def yw (B : Base) (ρ : Var → ℝ) (i : ℕ) : Matrix (Fin 3) (Fin B.n) ℝ := SX.val ρ (B.Yw i) 3 B.n

theorem yv_eq (i : ℕ) : B.yv ρ i = SX.val ρ (B.Jv i) 3 B.n := by
  rw [← lin_J]; ext a j
  have h : (a : ℕ) < 3 := a.2
  simp [yv, Yv, SX.block, Spec.lin, h]

theorem yw_eq {i : ℕ} (hi : i < B.n) : B.yw ρ i = B.jw ρ i := by
  have : B.yw ρ i = SX.val ρ (B.Jw i) 3 B.n := by
    rw [← ang_J]; ext a j
    have h : (a : ℕ) < 3 := a.2
    simp [yw, Yw, SX.block, Spec.angRows, h, add_comm]
  rw [this, Jw, imod_of_lt hi]; rfl

theorem jv_eq {i : ℕ} (hi : i < B.n) :
    B.jv ρ i = B.yv ρ i - hat (B.rotV ρ (i + 1) *ᵥ B.comV ρ i) * B.jw ρ i := by
  ext a j
  rw [yv_eq, Jv, if_neg (by omega), imod_of_lt hi, Matrix.sub_apply, jv, Jcv, val_posJac, val_posJac]
  have hw : ∀ b : Fin 3, B.jw ρ i b j = if (j : ℕ) ≤ i then (B.rev j • B.axis ρ (j + 1)) b else 0 := by
    intro b; rw [jw, Jcw, val_orJac, vec_orCol]
  simp only [Matrix.mul_apply, hw, vec_posCol, vec_Ocm]
  split_ifs with h
  · have : ∀ v : Fin 3 → ℝ, ∑ x, hat (B.rotV ρ (i + 1) *ᵥ B.comV ρ i) a x * v x =
        (hat (B.rotV ρ (i + 1) *ᵥ B.comV ρ i) *ᵥ v) a := fun v => rfl
    rw [this, Matrix.mulVec_smul, hat_anticomm (B.rotV ρ (i + 1) *ᵥ B.comV ρ i), add_sub_right_comm, Matrix.mulVec_add]
    simp only [Pi.add_apply, Pi.smul_apply, Pi.neg_apply, smul_eq_mul, posV]
    ring
  · simp

/-- Matrix multiplying the `l`-th barycentric parameter of link `i` in the mass matrix. -/
def basisM (B : Base) (i : ℕ) : ℕ → SX
  | 0 => B.M0 i
  | 1 => B.M1 i 0
  | 2 => B.M1 i 1
  | 3 => B.M1 i 2
  | l + 4 => B.M2 i l

theorem val_M0 (i : ℕ) : SX.val ρ (B.M0 i) B.n B.n = (B.yv ρ i)ᵀ * B.yv ρ i := by
  rw [M0, SX.val_mtimes ρ _ _ B.n 3 B.n rfl]; rfl

theorem val_M1 (i l : ℕ) : SX.val ρ (B.M1 i l) B.n B.n =
    (B.yw ρ i)ᵀ * B.rotV ρ (i + 1) * SX.val ρ (matQ l) 3 3 * (B.rotV ρ (i + 1))ᵀ * B.yv ρ i -
    (B.yv ρ i)ᵀ * B.rotV ρ (i + 1) * SX.val ρ (matQ l) 3 3 * (B.rotV ρ (i + 1))ᵀ * B.yw ρ i := by
  have hq : (matQ l).cols = 3 := by rcases l with _ | _ | _ <;> rfl
  rw [M1, SX.val_sub, SX.val_mtimes ρ _ _ B.n 3 B.n rfl, SX.val_mtimes ρ _ _ B.n 3 3 (by exact hq),
    SX.val_mtimes ρ _ _ B.n 3 3 rfl, SX.val_mtimes ρ _ _ B.n 3 3 rfl, SX.val_mtimes ρ _ _ B.n 3 B.n rfl,
    SX.val_mtimes ρ _ _ B.n 3 3 (by exact hq), SX.val_mtimes ρ _ _ B.n 3 3 rfl, SX.val_mtimes ρ _ _ B.n 3 3 rfl]
  rfl

theorem val_M2 (i l : ℕ) : SX.val ρ (B.M2 i l) B.n B.n =
    (B.yw ρ i)ᵀ * B.rotV ρ (i + 1) * SX.val ρ (matE l) 3 3 * (B.rotV ρ (i + 1))ᵀ * B.yw ρ i := by
  have hq : (matE l).cols = 3 := by rcases l with _ | _ | _ | _ | _ | _ <;> rfl
  rw [M2, SX.val_mtimes ρ _ _ B.n 3 B.n rfl, SX.val_mtimes ρ _ _ B.n 3 3 (by exact hq),
    SX.val_mtimes ρ _ _ B.n 3 3 rfl, SX.val_mtimes ρ _ _ B.n 3 3 rfl]
  rfl

variable (hB : B.WF)
include hB

theorem val_Mi_lin (hU : B.UnitAngles) {i : ℕ} (hi : i < B.n) : SX.val ρ (B.Mi i) B.n B.n =
    ∑ l ∈ Finset.range 10, Spec.reg (B.dynV ρ) (l + i * 10) • SX.val ρ (B.basisM i l) B.n B.n := by
  have hR := isRot_R0 hB ρ hU (i := i + 1) (by omega)
  change IsRot (B.rotV ρ (i + 1)) at hR
  have hreg : ∀ l < 10, Spec.reg (B.dynV ρ) (l + i * 10) =
      Spec.linPar (B.massV ρ i) (B.comV ρ i) (B.inertiaV ρ i) l := by
    intro l hl
    rw [massV_eq, comV_eq, inertiaV_eq, Spec.reg, show (l + i * 10) / 10 = i by omega, show (l + i * 10) % 10 = l by omega]
  have hs := inertiaV_symm (B := B) ρ i
  rw [Finset.sum_congr rfl fun l hl => by rw [hreg l (Finset.mem_range.mp hl)], val_Mi, jv_eq ρ hi, ← hR.hat_conj,
    sum_range_ten, ← yw_eq ρ hi]
  generalize B.massV ρ i = m, B.comV ρ i = c, B.inertiaV ρ i = I at *
  have h3 : ∀ l : Fin 3, Spec.linPar m c I (1 + l) = m * c l := by intro l; fin_cases l <;> rfl
  have h6 : ∀ l : Fin 6, SX.val ρ (B.basisM i (4 + l)) B.n B.n = SX.val ρ (B.M2 i l) B.n B.n := by
    intro l; rw [add_comm]; rfl
  have h3' : ∀ l : Fin 3, SX.val ρ (B.basisM i (1 + l)) B.n B.n = SX.val ρ (B.M1 i l) B.n B.n := by
    intro l; fin_cases l <;> rfl
  have hE : symm6 (fun l => Spec.linPar m c I (4 + l)) = Spec.originInertia m c I := by
    have hso : ∀ a b, Spec.originInertia m c I a b = Spec.originInertia m c I b a := by
      intro a b
      have : (Spec.originInertia m c I)ᵀ = Spec.originInertia m c I := by
        simp [Spec.originInertia, Matrix.transpose_add, Matrix.transpose_mul, hs]
      exact congrFun (congrFun this b) a
    ext a b; fin_cases a <;> fin_cases b <;> simp [symm6, Spec.linPar] <;> exact hso _ _
  have e1 : ∑ l : Fin 3, Spec.linPar m c I (1 + l) • SX.val ρ (B.basisM i (1 + l)) B.n B.n =
      m • ((B.yw ρ i)ᵀ * B.rotV ρ (i + 1) * hat c * (B.rotV ρ (i + 1))ᵀ * B.yv ρ i -
      (B.yv ρ i)ᵀ * B.rotV ρ (i + 1) * hat c * (B.rotV ρ (i + 1))ᵀ * B.yw ρ i) := by
    rw [← val_matQ_sum ρ c, Matrix.mul_sum, Matrix.mul_sum, Matrix.sum_mul, Matrix.sum_mul, Matrix.sum_mul, Matrix.sum_mul,
      ← Finset.sum_sub_distrib, Finset.smul_sum]
    refine Finset.sum_congr rfl fun l _ => ?_
    rw [h3, h3', val_M1, mul_smul]
    simp only [Matrix.mul_smul, Matrix.smul_mul, smul_sub]
  have e2 : ∑ l : Fin 6, Spec.linPar m c I (4 + l) • SX.val ρ (B.basisM i (4 + l)) B.n B.n =
      (B.yw ρ i)ᵀ * B.rotV ρ (i + 1) * Spec.originInertia m c I * (B.rotV ρ (i + 1))ᵀ * B.yw ρ i := by
    rw [← hE, ← val_matE_sum ρ, Matrix.mul_sum, Matrix.sum_mul, Matrix.sum_mul]
    refine Finset.sum_congr rfl fun l _ => ?_
    rw [h6, val_M2]
    simp only [Matrix.mul_smul, Matrix.smul_mul]
  rw [e1, e2]
  simp only [Spec.linPar, basisM, val_M0, Spec.originInertia]
  have hT : (B.rotV ρ (i + 1) * hat c * (B.rotV ρ (i + 1))ᵀ)ᵀ = B.rotV ρ (i + 1) * (hat c)ᵀ * (B.rotV ρ (i + 1))ᵀ := by
    simp [Matrix.transpose_mul, Matrix.mul_assoc]
  have hRR : ∀ {k : ℕ} (X : Matrix (Fin 3) (Fin k) ℝ), (B.rotV ρ (i + 1))ᵀ * (B.rotV ρ (i + 1) * X) = X := by
    intro k X; rw [← Matrix.mul_assoc, hR.orth, Matrix.one_mul]
  rw [Matrix.transpose_sub, Matrix.transpose_mul, hT, Matrix.sub_mul, Matrix.mul_sub, Matrix.mul_sub]
  simp only [Matrix.mul_assoc, hRR, Matrix.mul_add, Matrix.add_mul, Matrix.mul_smul, Matrix.smul_mul, smul_sub]
  have hh : (hat c)ᵀ * ((B.rotV ρ (i + 1))ᵀ * B.yv ρ i) = -(hat c * ((B.rotV ρ (i + 1))ᵀ * B.yv ρ i)) := by
    rw [hat_transpose, Matrix.neg_mul]
  rw [hh]
  simp only [Matrix.mul_neg, smul_neg]
  abel

theorem val_M_lin (hU : B.UnitAngles) : SX.val ρ B.M B.n B.n =
    ∑ i ∈ Finset.range B.n, ∑ l ∈ Finset.range 10, Spec.reg (B.dynV ρ) (l + i * 10) • SX.val ρ (B.basisM i l) B.n B.n := by
  rw [val_M]
  exact Finset.sum_congr rfl fun i hi => val_Mi_lin ρ hB hU (Finset.mem_range.mp hi)

theorem dynV_update (k : ℕ) (t : ℝ) : B.dynV (Function.update ρ ⟨"q", k⟩ t) = B.dynV ρ := by
  funext j
  refine Expr.eval_congr fun v hv => Function.update_of_ne ?_ _ _
  rintro rfl
  exact absurd (hB.dyn.over _ _ hv).1 (show ("q" : String) ≠ "par_DYN" by decide)

theorem smooth_Yv (S : Set Var) (i : ℕ) : SX.Smooth S (B.Yv i) := (smooth_J hB i).block _ _ _ _
theorem smooth_Yw (S : Set Var) (i : ℕ) : SX.Smooth S (B.Yw i) := (smooth_J hB i).block _ _ _ _
omit hB in
theorem smooth_matQ (S : Set Var) (l : ℕ) : SX.Smooth S (matQ l) := by
  have h0 : ∀ c : ℝ, Expr.Smooth S (.const c) := fun c => trivial
  rcases l with _ | _ | _ <;> exact smooth_mat33 (h0 _) (h0 _) (h0 _) (h0 _) (h0 _) (h0 _) (h0 _) (h0 _) (h0 _)
omit hB in
theorem smooth_matE (S : Set Var) (l : ℕ) : SX.Smooth S (matE l) := by
  have h0 : ∀ c : ℝ, Expr.Smooth S (.const c) := fun c => trivial
  rcases l with _ | _ | _ | _ | _ | _ <;>
    exact smooth_mat33 (h0 _) (h0 _) (h0 _) (h0 _) (h0 _) (h0 _) (h0 _) (h0 _) (h0 _)

theorem smooth_basisM (S : Set Var) (i l : ℕ) : SX.Smooth S (B.basisM i l) := by
  have hv := smooth_Yv hB S i
  have hw := smooth_Yw hB S i
  have hR : SX.Smooth S (B.R0 (i + 1)) := smooth_R0 hB _
  have h1 : ∀ l, SX.Smooth S (B.M1 i l) := fun l =>
    ((((hw.transp.mtimes hR).mtimes (smooth_matQ S l)).mtimes hR.transp).mtimes hv).sub
      ((((hv.transp.mtimes hR).mtimes (smooth_matQ S l)).mtimes hR.transp).mtimes hw)
  rcases l with _ | _ | _ | _ | l
  · exact hv.transp.mtimes hv
  · exact h1 0
  · exact h1 1
  · exact h1 2
  · exact (((hw.transp.mtimes hR).mtimes (smooth_matE S l)).mtimes hR.transp).mtimes hw

omit hB in
theorem basisM_rows (i l : ℕ) : (B.basisM i l).rows = B.n := by rcases l with _ | _ | _ | _ | l <;> rfl
omit hB in
theorem basisM_cols (i l : ℕ) : (B.basisM i l).cols = B.n := by rcases l with _ | _ | _ | _ | l <;> rfl

theorem pd_M_lin (hU : B.UnitAngles) {a b : ℕ} (ha : a < B.n) (hb : b < B.n) (k : ℕ) : pd ρ B.M a b k =
    ∑ i ∈ Finset.range B.n, ∑ l ∈ Finset.range 10, Spec.reg (B.dynV ρ) (l + i * 10) * pd ρ (B.basisM i l) a b k := by
  have h1 := Expr.hasDerivAt_D (ρ := ρ) (v := ⟨"q", k⟩) (smooth_M (S := {⟨"q", k⟩}) hB a b)
  have e : (fun t => Expr.eval (Function.update ρ ⟨"q", k⟩ t) (B.M.e a b)) = fun t =>
      ∑ i ∈ Finset.range B.n, ∑ l ∈ Finset.range 10,
        Spec.reg (B.dynV ρ) (l + i * 10) * Expr.eval (Function.update ρ ⟨"q", k⟩ t) ((B.basisM i l).e a b) := by
    funext t
    have := congrFun (congrFun (val_M_lin (Function.update ρ ⟨"q", k⟩ t) hB hU) ⟨a, ha⟩) ⟨b, hb⟩
    rw [SX.val_apply] at this
    rw [this, Matrix.sum_apply]
    refine Finset.sum_congr rfl fun i _ => ?_
    rw [Matrix.sum_apply]
    refine Finset.sum_congr rfl fun l _ => ?_
    rw [Matrix.smul_apply, dynV_update ρ hB, smul_eq_mul]
    rfl
  have h2 : HasDerivAt (fun t => ∑ i ∈ Finset.range B.n, ∑ l ∈ Finset.range 10,
        Spec.reg (B.dynV ρ) (l + i * 10) * Expr.eval (Function.update ρ ⟨"q", k⟩ t) ((B.basisM i l).e a b))
      (∑ i ∈ Finset.range B.n, ∑ l ∈ Finset.range 10,
        Spec.reg (B.dynV ρ) (l + i * 10) * pd ρ (B.basisM i l) a b k) (ρ ⟨"q", k⟩) := by
    refine HasDerivAt.fun_sum fun i _ => HasDerivAt.fun_sum fun l _ => HasDerivAt.const_mul _ ?_
    have := Expr.hasDerivAt_D (ρ := ρ) (v := ⟨"q", k⟩) (smooth_basisM hB {⟨"q", k⟩} i l a b)
    rwa [Expr.eval_D] at this
  rw [Expr.eval_D, e] at h1
  exact h1.unique h2

theorem val_C_lin (hU : B.UnitAngles) : SX.val ρ B.C B.n B.n =
    ∑ i ∈ Finset.range B.n, ∑ l ∈ Finset.range 10,
      Spec.reg (B.dynV ρ) (l + i * 10) • SX.val ρ (B.cor (B.basisM i l)) B.n B.n := by
  ext a k
  have hr : ∀ i l, SX.val ρ (B.cor (B.basisM i l)) B.n B.n a k =
      (∑ j : Fin B.n, pd ρ (B.basisM i l) a k j * ρ ⟨"dq", j⟩ + ∑ j : Fin B.n, pd ρ (B.basisM i l) a j k * ρ ⟨"dq", j⟩
        - ∑ j : Fin B.n, pd ρ (B.basisM i l) k j a * ρ ⟨"dq", j⟩) / 2 := by
    intro i l
    rw [SX.val_apply, cor, hB.q, hB.dq, eval_stdCmatrix ρ _ B.n (basisM_rows i l) a.2 k.2, Finset.sum_range,
      Finset.sum_range, Finset.sum_range]
  rw [val_C ρ hB, Matrix.sum_apply]
  simp only [Matrix.sum_apply, Matrix.smul_apply, hr, smul_eq_mul, pd_M_lin ρ hB hU (Fin.is_lt _) (Fin.is_lt _)]
  have sw : ∀ f : ℕ → ℕ → Fin B.n → ℝ, ∑ j : Fin B.n, (∑ i ∈ Finset.range B.n, ∑ l ∈ Finset.range 10,
      Spec.reg (B.dynV ρ) (l + i * 10) * f i l j) * ρ ⟨"dq", j⟩ =
      ∑ i ∈ Finset.range B.n, ∑ l ∈ Finset.range 10,
        Spec.reg (B.dynV ρ) (l + i * 10) * ∑ j : Fin B.n, f i l j * ρ ⟨"dq", j⟩ := by
    intro f
    simp only [Finset.sum_mul, Finset.mul_sum]
    rw [Finset.sum_comm]
    refine Finset.sum_congr rfl fun i _ => ?_
    rw [Finset.sum_comm]
    exact Finset.sum_congr rfl fun l _ => Finset.sum_congr rfl fun j _ => by ring
  rw [sw fun i l j => pd ρ (B.basisM i l) a k j, sw fun i l j => pd ρ (B.basisM i l) a j k,
    sw fun i l j => pd ρ (B.basisM i l) k j a]
  rw [← Finset.sum_add_distrib, ← Finset.sum_sub_distrib, Finset.sum_div]
  refine Finset.sum_congr rfl fun i _ => ?_
  rw [← Finset.sum_add_distrib, ← Finset.sum_sub_distrib, Finset.sum_div]
  exact Finset.sum_congr rfl fun l _ => by rw [← mul_add, ← mul_sub, mul_div_assoc]

/-! Columns of the stacked regressors -/

omit hB in
theorem stack_mulVec (f : ℕ → SX) (P : ℕ → ℝ) (a : Fin B.n) :
    (SX.val ρ (B.stack f) B.n (10 * B.n) *ᵥ fun k => P k) a =
      ∑ i ∈ Finset.range B.n, ∑ l ∈ Finset.range 10, Expr.eval ρ ((f i).e a l) * P (l + i * 10) := by
  change ∑ k : Fin (10 * B.n), Expr.eval ρ ((B.stack f).e a k) * P k = _
  rw [← Finset.sum_range (fun k => Expr.eval ρ ((B.stack f).e a k) * P k), sum_range_mul' 10 B.n]
  refine Finset.sum_congr rfl fun i hi => Finset.sum_congr rfl fun l hl => ?_
  have hi' := Finset.mem_range.mp hi
  have hl' := Finset.mem_range.mp hl
  have h : l + i * 10 < nPar * B.n := by simp only [nPar]; omega
  simp only [stack, h, if_true]
  simp only [nPar, show (l + i * 10) / 10 = i by omega, show (l + i * 10) % 10 = l by omega]

omit hB in
theorem hcat3_e {A₁ A₂ A₃ : SX} (h1 : A₁.cols = 1) (h2 : A₂.cols = 3) (a l : ℕ) :
    (SX.hcat (SX.hcat A₁ A₂) A₃).e a l =
      if l < 4 then if l < 1 then A₁.e a l else A₂.e a (l - 1) else A₃.e a (l - 4) := by
  simp only [SX.hcat, h1, h2]

omit hB in
/-- Columns of a link block, uniformly indexed by the barycentric parameter. -/
theorem hcat3_cols {n : ℕ} (X : ℕ → SX) {A₁ : SX} (h1 : A₁.cols = 1) {a l : ℕ} (ha : A₁.e a 0 = (X 0).e a 0) (hl : l < 10) :
    (SX.hcat (SX.hcat A₁ (ofCols n 3 fun l => X (1 + l))) (ofCols n 6 fun l => X (4 + l))).e a l = (X l).e a 0 := by
  rw [hcat3_e h1 rfl]
  split_ifs with h4 h
  · obtain rfl : l = 0 := by omega
    exact ha
  · simp only [ofCols, show l - 1 < 3 by omega, if_true, show 1 + (l - 1) = l by omega]
  · simp only [ofCols, show l - 4 < 6 by omega, if_true, show 4 + (l - 4) = l by omega]

theorem ddqr_cols : B.ddqr.cols = 1 := by rw [hB.ddqr]; rfl
theorem dqr_cols : B.dqr.cols = 1 := by rw [hB.dqr]; rfl
theorem g_cols : B.g.cols = 1 := hB.g.cols

omit hB in
theorem basisM_M1 {i l : ℕ} (hl : l < 3) : B.basisM i (1 + l) = B.M1 i l := by
  rcases l with _ | _ | _ | l
  · rfl
  · rfl
  · rfl
  · omega
omit hB in
theorem basisM_M2 (i l : ℕ) : B.basisM i (4 + l) = B.M2 i l := by rw [add_comm]; rfl

theorem regMi_e (i : ℕ) (a : Fin B.n) {l : ℕ} (hl : l < 10) : Expr.eval ρ ((B.regMi i).e a l) =
    (SX.val ρ (B.basisM i l) B.n B.n *ᵥ fun j : Fin B.n => ρ ⟨"ddqr", j⟩) a := by
  have h : (B.regMi i).e a l = (SX.mtimes (B.basisM i l) B.ddqr).e a 0 := by
    have e1 : B.dX1 i = ofCols B.n 3 fun l => SX.mtimes (B.basisM i (1 + l)) B.ddqr := by
      rw [dX1, ofCols, ofCols]
      congr 1
      · funext a l; split_ifs with h <;> [rw [basisM_M1 h]; rfl]
      · exact propext (forall₂_congr fun l h => by rw [basisM_M1 h])
    have e2 : B.dX2 i = ofCols B.n 6 fun l => SX.mtimes (B.basisM i (4 + l)) B.ddqr := by
      rw [dX2]; simp only [basisM_M2]
    rw [regMi, e1, e2]
    exact hcat3_cols (fun l => SX.mtimes (B.basisM i l) B.ddqr) (A₁ := B.dX0 i) (ddqr_cols hB) rfl hl
  rw [h]
  have := congrFun (SX.vec_mtimes ρ (B.basisM i l) B.ddqr B.n B.n (basisM_cols i l)) a
  rw [hB.ddqr, SX.vec_sym] at this
  rw [hB.ddqr]
  exact this

theorem cor_cols (A : SX) : (B.cor A).cols = B.n := by rw [cor, hB.q]; rfl

theorem regCi_e (i : ℕ) (a : Fin B.n) {l : ℕ} (hl : l < 10) : Expr.eval ρ ((B.regCi i).e a l) =
    (SX.val ρ (B.cor (B.basisM i l)) B.n B.n *ᵥ fun j : Fin B.n => ρ ⟨"dqr", j⟩) a := by
  have h : Expr.eval ρ ((B.regCi i).e a l) = Expr.eval ρ ((SX.mtimes (B.cor (B.basisM i l)) B.dqr).e a 0) := by
    rw [regCi, hcat3_e (by exact dqr_cols hB) rfl]
    split_ifs with h4 h
    · obtain rfl : l = 0 := by omega
      simp only [W0, SX.neg, Expr.eval_sneg, neg_neg]; rfl
    · have e := basisM_M1 (B := B) (i := i) (l := l - 1) (by omega)
      rw [show 1 + (l - 1) = l by omega] at e
      simp only [W1, SX.neg, ofCols, show l - 1 < 3 by omega, if_true, Expr.eval_sneg, neg_neg, e]
    · have e := basisM_M2 (B := B) i (l - 4)
      rw [show 4 + (l - 4) = l by omega] at e
      simp only [W2, SX.neg, ofCols, show l - 4 < 6 by omega, if_true, Expr.eval_sneg, neg_neg, e]
  rw [h]
  have := congrFun (SX.vec_mtimes ρ (B.cor (B.basisM i l)) B.dqr B.n B.n (cor_cols hB _)) a
  rw [hB.dqr, SX.vec_sym] at this
  rw [hB.dqr]
  exact this

/-! Gravity -/

theorem Z0_e (i : ℕ) (a : Fin B.n) : Expr.eval ρ ((B.Z0 i).e a 0) = -((B.yv ρ i)ᵀ *ᵥ SX.vec ρ B.g 3) a := by
  have := congrFun (SX.vec_mtimes ρ (SX.transp (B.Yv i)) B.g B.n 3 rfl) a
  simp only [Z0, SX.neg, Expr.eval_sneg]
  exact congrArg Neg.neg this

theorem Z1_e (hU : B.UnitAngles) {i : ℕ} (hi : i < B.n) (a : Fin B.n) (l : Fin 3) : Expr.eval ρ ((B.Z1 i).e a l) =
    ((B.rotV ρ (i + 1))ᵀ *ᵥ hat (B.jw ρ i *ᵥ Pi.single a 1) *ᵥ SX.vec ρ B.g 3) l := by
  have hg : SX.dvec ρ (Expr.single ⟨"q", a⟩) B.g 3 = 0 := by
    ext b; exact hB.g.dir (qdir_single a) (by decide) ρ _ _
  have h := congrFun (SX.dvec_mtimes ρ (Expr.single ⟨"q", a⟩) (SX.transp (B.R0 (i + 1))) B.g 3 3 rfl) l
  rw [hg, Matrix.mulVec_zero, add_zero, SX.dval_transp, dval_R0_jw ρ _ hB hU (qdir_single a) hi, spv_single,
    Matrix.transpose_mul, hat_transpose, Matrix.mul_neg, Matrix.neg_mulVec, ← Matrix.mulVec_mulVec] at h
  have e : Expr.eval ρ ((B.Z1 i).e a l) =
      -Expr.dir ρ (Expr.single ⟨"q", a⟩) ((SX.mtimes (SX.transp (B.R0 (i + 1))) B.g).e l 0) := by
    have hr : (SX.mtimes (SX.transp (B.R0 (i + 1))) B.g).rows = 3 := rfl
    simp only [Z1, SX.neg, Expr.eval_sneg]
    rw [show ∀ (A : SX) (x y : ℕ), (SX.transp A).e x y = A.e y x from fun _ _ _ => rfl]
    rw [hB.q, SX.eval_jacobian ρ _ "q" B.n l a a.2]
    change -Expr.dir ρ _ ((SX.mtimes (SX.transp (B.R0 (i + 1))) B.g).e ((l : ℕ) % 3) ((l : ℕ) / 3)) = _
    rw [Nat.mod_eq_of_lt l.2, Nat.div_eq_of_lt l.2]
  rw [e]
  exact (congrArg Neg.neg h).trans (neg_neg _)

theorem regGi_sum (hU : B.UnitAngles) {i : ℕ} (hi : i < B.n) (a : Fin B.n) :
    ∑ l ∈ Finset.range 10, Expr.eval ρ ((B.regGi i).e a l) * Spec.reg (B.dynV ρ) (l + i * 10) =
      ((-B.massV ρ i) • ((B.jv ρ i)ᵀ *ᵥ SX.vec ρ B.g 3)) a := by
  have hreg : ∀ l < 10, Spec.reg (B.dynV ρ) (l + i * 10) =
      Spec.linPar (B.massV ρ i) (B.comV ρ i) (B.inertiaV ρ i) l := by
    intro l hl
    rw [massV_eq, comV_eq, inertiaV_eq, Spec.reg, show (l + i * 10) / 10 = i by omega, show (l + i * 10) % 10 = l by omega]
  rw [Finset.sum_congr rfl fun l hl => by rw [hreg l (Finset.mem_range.mp hl)], sum_range_ten]
  have hc0 : (B.Z0 i).cols = 1 := g_cols hB
  have hc1 : (B.Z1 i).cols = 3 := by
    change 3 * B.g.cols = 3
    rw [g_cols hB]
  have e0 : Expr.eval ρ ((B.regGi i).e a 0) = Expr.eval ρ ((B.Z0 i).e a 0) := by
    rw [regGi, hcat3_e hc0 hc1]; rfl
  have e1 : ∀ l : Fin 3, Expr.eval ρ ((B.regGi i).e a (1 + l)) = Expr.eval ρ ((B.Z1 i).e a l) := by
    intro l
    have := l.2
    rw [regGi, hcat3_e hc0 hc1, if_pos (by omega), if_neg (by omega), Nat.add_sub_cancel_left]
  have e2 : ∀ l : Fin 6, Expr.eval ρ ((B.regGi i).e a (4 + l)) = 0 := by
    intro l
    rw [regGi, hcat3_e hc0 hc1, if_neg (by omega)]
    simp [SX.zeros]
  have h3 : ∀ l : Fin 3, Spec.linPar (B.massV ρ i) (B.comV ρ i) (B.inertiaV ρ i) (1 + l) = B.massV ρ i * B.comV ρ i l := by
    intro l; fin_cases l <;> rfl
  simp only [e0, e1, e2, h3, zero_mul, Finset.sum_const_zero, add_zero, Z0_e ρ hB, Z1_e ρ hB hU hi, jv_eq ρ hi]
  have hs : ∀ x : Fin 3 → ℝ, ∑ l : Fin 3, x l * (B.massV ρ i * B.comV ρ i l) = B.massV ρ i * (B.comV ρ i ⬝ᵥ x) := by
    intro x
    rw [dotProduct, Finset.mul_sum]
    exact Finset.sum_congr rfl fun l _ => by ring
  rw [hs, Matrix.dotProduct_mulVec, Matrix.vecMul_transpose, Matrix.transpose_sub, Matrix.sub_mulVec, Pi.smul_apply,
    Pi.sub_apply, Matrix.transpose_mul, hat_transpose, ← Matrix.mulVec_mulVec, Matrix.neg_mulVec, Matrix.mulVec_neg]
  have hT : ∀ x : Fin 3 → ℝ, ((B.jw ρ i)ᵀ *ᵥ x) a = (B.jw ρ i *ᵥ Pi.single a 1) ⬝ᵥ x := by
    intro x
    rw [dotProduct_comm, Matrix.dotProduct_mulVec, ← Matrix.mulVec_transpose, dotProduct_single_one]
  rw [Pi.neg_apply, hT]
  generalize B.jw ρ i *ᵥ Pi.single a 1 = w, B.rotV ρ (i + 1) *ᵥ B.comV ρ i = r, SX.vec ρ B.g 3 = g
  have : r ⬝ᵥ hat w *ᵥ g = -(w ⬝ᵥ hat r *ᵥ g) := by
    simp [hat, mulVec, dotProduct, Fin.sum_univ_three]; ring
  rw [this]
  simp only [Spec.linPar, smul_eq_mul]
  ring

end Base

end

end Thunder
