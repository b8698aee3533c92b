import Verif.Lemmas.Time
import Verif.Lemmas.Smooth

/-!
# Values of the dynamics expressions
-/

set_option linter.unusedSectionVars false

open scoped Classical
open Matrix

namespace Thunder

noncomputable section

/-! ### Coriolis matrix -/

theorem sum_range_mul' {M : Type*} [AddCommMonoid M] (n m : ℕ) (g : ℕ → M) :
    ∑ c ∈ Finset.range (n * m), g c = ∑ b ∈ Finset.range m, ∑ a ∈ Finset.range n, g (a + b * n) := by
  induction m with
  | zero => simp
  | succ m ih =>
    rw [Finset.sum_range_succ, ← ih, Nat.mul_succ, Finset.sum_range_add]
    congr 1
    refine Finset.sum_congr rfl fun a _ => ?_
    rw [add_comm, mul_comm]

/-- Partial derivative of entry `(a,b)` with respect to `q_k` (value). -/
def pd (ρ : Var → ℝ) (A : SX) (a b k : ℕ) : ℝ := Expr.dir ρ (Expr.single ⟨"q", k⟩) (A.e a b)

/-- Sizes of the matrix fed to `stdCmatrix`. -/
theorem eval_stdCmatrix (ρ : Var → ℝ) (A : SX) (n : ℕ) (hr : A.rows = n) {a k : ℕ} (ha : a < n) (hk : k < n) :
    Expr.eval ρ ((stdCmatrix A (SX.sym "q" n) (SX.sym "dq" n) (dqSelect (SX.sym "dq" n))).e a k) =
      (∑ i ∈ Finset.range n, pd ρ A a k i * ρ ⟨"dq", i⟩ + ∑ i ∈ Finset.range n, pd ρ A a i k * ρ ⟨"dq", i⟩
        - ∑ i ∈ Finset.range n, pd ρ A k i a * ρ ⟨"dq", i⟩) / 2 := by
  have hn : 0 < n := by omega
  have jac : ∀ r c : ℕ, c < n → Expr.eval ρ ((SX.jacobian A (SX.sym "q" n)).e r c) = pd ρ A (r % n) (r / n) c := by
    intro r c hc
    rw [SX.eval_jacobian ρ A "q" n r c hc, hr]; rfl
  have h132 : ∀ {a k : ℕ}, a < n → k < n →
      Expr.eval ρ ((SX.mtimes (dqSelect (SX.sym "dq" n)) (SX.jacobian A (SX.sym "q" n))).e a k) =
      ∑ i ∈ Finset.range n, pd ρ A a i k * ρ ⟨"dq", i⟩ := by
    intro a k ha hk
    have hc : (dqSelect (SX.sym "dq" n)).cols = n * n := rfl
    simp only [SX.mtimes, hc, eval_sumN, Expr.eval_smul, jac _ k hk]
    rw [sum_range_mul' n n]
    refine Finset.sum_congr rfl fun b hb => ?_
    have hb' : b < n := Finset.mem_range.mp hb
    have hlt : ∀ x < n, x + b * n < n * n := fun x hx => by
      calc x + b * n < n + b * n := by omega
        _ = (b + 1) * n := by ring
        _ ≤ n * n := Nat.mul_le_mul_right n hb'
    rw [Finset.sum_eq_single a]
    · have h1 : (a + b * n) % n = a := by rw [Nat.add_mul_mod_self_right, Nat.mod_eq_of_lt ha]
      have h2 : (a + b * n) / n = b := by rw [Nat.add_mul_div_right _ _ hn, Nat.div_eq_of_lt ha, zero_add]
      have h3 := hlt a ha
      simp only [dqSelect, SX.sym, SX.eye, ha, h1, h2, h3, hb', and_self, if_true, Expr.eval_smul, Expr.eval_const,
        Expr.eval_var]
      ring
    · intro x hx hxa
      have hx' : x < n := Finset.mem_range.mp hx
      have h1 : (x + b * n) % n = x := by rw [Nat.add_mul_mod_self_right, Nat.mod_eq_of_lt hx']
      have h3 := hlt x hx'
      have hne : ¬ (a = x) := fun h => hxa h.symm
      simp [dqSelect, SX.sym, SX.eye, ha, h1, h3, hne]
    · intro h; exact absurd (Finset.mem_range.mpr ha) h
  have h123 : Expr.eval ρ ((reshapeSq (SX.mtimes (SX.jacobian A (SX.sym "q" n)) (SX.sym "dq" n)) n).e a k) =
      ∑ i ∈ Finset.range n, pd ρ A a k i * ρ ⟨"dq", i⟩ := by
    have hc : (SX.jacobian A (SX.sym "q" n)).cols = n := rfl
    simp only [reshapeSq, ha, hk, and_self, if_true, SX.mtimes, hc, eval_sumN, Expr.eval_smul]
    refine Finset.sum_congr rfl fun i hi => ?_
    have hi' : i < n := Finset.mem_range.mp hi
    rw [jac _ i hi']
    have h1 : (a + k * n) % n = a := by rw [Nat.add_mul_mod_self_right, Nat.mod_eq_of_lt ha]
    have h2 : (a + k * n) / n = k := by rw [Nat.add_mul_div_right _ _ hn, Nat.div_eq_of_lt ha, zero_add]
    rw [h1, h2]
    simp [SX.sym, hi']
  have hn' : (SX.sym "q" n).rows = n := rfl
  simp only [stdCmatrix, SX.divc, SX.sub, SX.add, SX.transp, Expr.eval_sdiv, Expr.eval_ssub, Expr.eval_sadd, Expr.eval_const,
    hn', h123, h132 ha hk, h132 hk ha]

theorem eval_stdCmatrixClassic (ρ : Var → ℝ) (A : SX) (n : ℕ) {a k : ℕ} (ha : a < n) (hk : k < n) :
    Expr.eval ρ ((stdCmatrixClassic A (SX.sym "q" n) (SX.sym "dq" n)).e a k) =
      (∑ i ∈ Finset.range n, pd ρ A a k i * ρ ⟨"dq", i⟩ + ∑ i ∈ Finset.range n, pd ρ A a i k * ρ ⟨"dq", i⟩
        - ∑ i ∈ Finset.range n, pd ρ A k i a * ρ ⟨"dq", i⟩) / 2 := by
  have hn' : (SX.sym "q" n).rows = n := rfl
  have hh : ∀ (e : Expr) {x v : ℕ}, x < n → v < n →
      Expr.eval ρ (halfTerm e ((SX.sym "q" n).e x 0) ((SX.sym "dq" n).e v 0)) =
        (1 / 2) * (Expr.dir ρ (Expr.single ⟨"q", x⟩) e * ρ ⟨"dq", v⟩) := by
    intro e x v hx hv
    rw [halfTerm, Expr.eval_smul, Expr.eval_smul, SX.eval_Dx ρ _ _ (v := ⟨"q", x⟩) (by simp [SX.sym, hx])]
    simp only [SX.sym, hv, and_self, if_true, Expr.eval_const, Expr.eval_var]
    norm_num
    ring
  simp only [stdCmatrixClassic, SX.sub, SX.add, SX.transp, Expr.eval_ssub, Expr.eval_sadd, hn', ha, hk, and_self, if_true,
    eval_sumN]
  rw [Finset.sum_congr rfl (fun i hi => hh (A.e a k) (Finset.mem_range.mp hi) (Finset.mem_range.mp hi)),
    Finset.sum_congr rfl (fun i hi => hh (A.e a i) hk (Finset.mem_range.mp hi)),
    Finset.sum_congr rfl (fun i hi => hh (A.e k i) ha (Finset.mem_range.mp hi)), ← Finset.mul_sum, ← Finset.mul_sum,
    ← Finset.mul_sum]
  unfold pd
  ring

/-! ### Mass matrix and gravity vector -/

variable [Fl]

namespace Base

variable {B : Base} (ρ δ : Var → ℝ)

/-- Link mass, centre of mass (link frame) and inertia tensor at the centre of mass (values). -/
def massV (B : Base) (ρ : Var → ℝ) (i : ℕ) : ℝ := Expr.eval ρ (B.mass i)
def comV (B : Base) (ρ : Var → ℝ) (i : ℕ) : Fin 3 → ℝ := SX.vec ρ (B.com i) 3
def inertiaV (B : Base) (ρ : Var → ℝ) (i : ℕ) : Matrix (Fin 3) (Fin 3) ℝ := SX.val ρ (B.inertia i) 3 3

theorem inertiaV_symm (i : ℕ) : (B.inertiaV ρ i)ᵀ = B.inertiaV ρ i := by
  rw [inertiaV, inertia]
  ext a b
  fin_cases a <;> fin_cases b <;> rfl

/-- Real matrices of the CoM Jacobians. -/
def jv (B : Base) (ρ : Var → ℝ) (i : ℕ) : Matrix (Fin 3) (Fin B.n) ℝ := SX.val ρ (B.Jcv i) 3 B.n
def jw (B : Base) (ρ : Var → ℝ) (i : ℕ) : Matrix (Fin 3) (Fin B.n) ℝ := SX.val ρ (B.Jcw i) 3 B.n
def rotV (B : Base) (ρ : Var → ℝ) (i : ℕ) : Matrix (Fin 3) (Fin 3) ℝ := SX.val ρ (B.R0 i) 3 3
def posV (B : Base) (ρ : Var → ℝ) (i : ℕ) : Fin 3 → ℝ := SX.vec ρ (B.P0 i) 3

theorem val_Mi (i : ℕ) : SX.val ρ (B.Mi i) B.n B.n = B.massV ρ i • ((B.jv ρ i)ᵀ * B.jv ρ i) +
    (B.jw ρ i)ᵀ * B.rotV ρ (i + 1) * B.inertiaV ρ i * (B.rotV ρ (i + 1))ᵀ * B.jw ρ i := by
  rw [Mi, SX.val_add, SX.val_scale, SX.val_mtimes ρ _ _ B.n 3 B.n rfl, SX.val_mtimes ρ _ _ B.n 3 B.n rfl,
    SX.val_mtimes ρ _ _ B.n 3 3 rfl, SX.val_mtimes ρ _ _ B.n 3 3 rfl, SX.val_mtimes ρ _ _ B.n 3 3 rfl]
  rfl

theorem val_M : SX.val ρ B.M B.n B.n = ∑ i ∈ Finset.range B.n, SX.val ρ (B.Mi i) B.n B.n := by
  have : ∀ k, SX.val ρ (B.Macc k) B.n B.n = ∑ i ∈ Finset.range k, SX.val ρ (B.Mi i) B.n B.n := by
    intro k
    induction k with
    | zero => simp [Macc]
    | succ k ih => rw [Macc, SX.val_add, ih, Finset.sum_range_succ]
  exact this B.n

theorem val_Mi_symm (i : ℕ) : (SX.val ρ (B.Mi i) B.n B.n)ᵀ = SX.val ρ (B.Mi i) B.n B.n := by
  rw [val_Mi, Matrix.transpose_add, Matrix.transpose_smul]
  simp only [Matrix.transpose_mul, Matrix.transpose_transpose, inertiaV_symm, Matrix.mul_assoc]

theorem val_M_symm : (SX.val ρ B.M B.n B.n)ᵀ = SX.val ρ B.M B.n B.n := by
  rw [val_M, Matrix.transpose_sum]
  exact Finset.sum_congr rfl fun i _ => val_Mi_symm ρ i

theorem quad_Mi (i : ℕ) (v : Fin B.n → ℝ) : v ⬝ᵥ SX.val ρ (B.Mi i) B.n B.n *ᵥ v =
    B.massV ρ i * ((B.jv ρ i *ᵥ v) ⬝ᵥ (B.jv ρ i *ᵥ v)) +
    ((B.rotV ρ (i + 1))ᵀ *ᵥ (B.jw ρ i *ᵥ v)) ⬝ᵥ B.inertiaV ρ i *ᵥ ((B.rotV ρ (i + 1))ᵀ *ᵥ (B.jw ρ i *ᵥ v)) := by
  rw [val_Mi, Matrix.add_mulVec, dotProduct_add, Matrix.smul_mulVec, dotProduct_smul, smul_eq_mul]
  congr 1
  · rw [← Matrix.mulVec_mulVec, Matrix.dotProduct_mulVec, Matrix.vecMul_transpose]
  · rw [← Matrix.mulVec_mulVec, ← Matrix.mulVec_mulVec, ← Matrix.mulVec_mulVec, ← Matrix.mulVec_mulVec,
      Matrix.dotProduct_mulVec, Matrix.vecMul_transpose, Matrix.dotProduct_mulVec, ← Matrix.mulVec_transpose]

theorem quad_M (v : Fin B.n → ℝ) : v ⬝ᵥ SX.val ρ B.M B.n B.n *ᵥ v =
    ∑ i ∈ Finset.range B.n, v ⬝ᵥ SX.val ρ (B.Mi i) B.n B.n *ᵥ v := by
  rw [val_M, Matrix.sum_mulVec, dotProduct_sum]

theorem g_rows_G (hg : B.g.rows = 3) : SX.vec ρ B.G B.n =
    ∑ i ∈ Finset.range B.n, (-B.massV ρ i) • ((B.jv ρ i)ᵀ *ᵥ SX.vec ρ B.g 3) := by
  have hk : ∀ k, SX.vec ρ (SX.transp (B.Gi k)) B.n = (-B.massV ρ k) • ((B.jv ρ k)ᵀ *ᵥ SX.vec ρ B.g 3) := by
    intro k
    ext a
    simp [Gi, SX.transp, SX.scale, SX.mtimes, hg, mulVec, dotProduct, massV, jv, Finset.sum_range, mul_comm]
  have : ∀ k, SX.vec ρ (B.Gacc k) B.n = ∑ i ∈ Finset.range k, (-B.massV ρ i) • ((B.jv ρ i)ᵀ *ᵥ SX.vec ρ B.g 3) := by
    intro k
    induction k with
    | zero => ext; simp [Gacc, SX.zeros]
    | succ k ih => rw [Gacc, SX.vec_add, ih, hk, Finset.sum_range_succ]
  exact this B.n

/-! Velocities of the centres of mass -/

theorem velo_add (i : ℕ) (p r : Fin 3 → ℝ) :
    B.velo ρ δ i (p + r) = B.velo ρ δ i p + hat (B.omega ρ δ i) *ᵥ r := by
  rw [velo, velo, omega, hat_sum, Matrix.sum_mulVec, ← Finset.sum_add_distrib]
  refine Finset.sum_congr rfl fun j _ => ?_
  rw [hat_smul, Matrix.smul_mulVec, mul_smul, ← smul_add]
  congr 1
  rw [add_assoc, ← smul_add, ← Matrix.mulVec_add]
  congr 4
  abel

theorem vec_Ocm (i : ℕ) : SX.vec ρ (B.Ocm i) 3 = B.posV ρ (i + 1) + B.rotV ρ (i + 1) *ᵥ B.comV ρ i := by
  rw [Ocm, SX.vec_add, SX.vec_mtimes ρ _ _ 3 3 rfl]; rfl

variable (hB : B.WF)
include hB

theorem dvec_com (hδ : QDir δ) (i : ℕ) : SX.dvec ρ δ (B.com i) 3 = 0 := by
  ext a
  fin_cases a <;> exact hB.dyn.dir hδ (by decide) ρ _ _

theorem dvec_Ocm (hU : B.UnitAngles) (hδ : QDir δ) {i : ℕ} (h : i < B.n) :
    SX.dvec ρ δ (B.Ocm i) 3 = B.jv ρ i *ᵥ B.spv δ := by
  have hc : (B.R0 (i + 1)).cols = 3 := rfl
  rw [jv, Jcv, posJac_mulVec ρ δ _ h, vec_Ocm, velo_add, Ocm, SX.dvec_add, SX.dvec_mtimes ρ δ _ _ 3 3 hc,
    dvec_com ρ δ hB hδ, Matrix.mulVec_zero, add_zero, dvec_P0 hB ρ δ hU hδ (by omega), dval_R0 hB ρ δ hU hδ (by omega),
    ← Matrix.mulVec_mulVec]
  rfl

theorem dval_R0_jw (hU : B.UnitAngles) (hδ : QDir δ) {i : ℕ} (h : i < B.n) :
    SX.dval ρ δ (B.R0 (i + 1)) 3 3 = hat (B.jw ρ i *ᵥ B.spv δ) * B.rotV ρ (i + 1) := by
  rw [jw, Jcw, orJac_mulVec ρ δ h, dval_R0 hB ρ δ hU hδ (by omega)]; rfl

/-! Symbols -/

variable {l : List String}

theorem over_Mi (hq : "q" ∈ l) (hd : "DHtable" ∈ l) (hw : "world2L0" ∈ l) (hy : "par_DYN" ∈ l) (i : ℕ) :
    SX.Over (names l) (B.Jcv i) ∧ SX.Over (names l) (B.Mi i) := by
  have hT := over_T0 hB (l := l) hq hd hw
  have hy' := hB.dyn.over_names hy
  have hR : SX.Over (names l) (B.R0 (i + 1)) := (hT _).block _ _ _ _
  have hc : SX.Over (names l) (B.com i) := over_col3 (hy' _ _) (hy' _ _) (hy' _ _)
  have hI : SX.Over (names l) (B.inertia i) := by
    apply over_mat33 <;> exact hy' _ _
  have hO : SX.Over (names l) (B.Ocm i) := SX.Over.add ((hT _).block _ _ _ _) (hR.mtimes hc)
  have hv : SX.Over (names l) (B.Jcv i) := over_posJac hT hO _
  have hw : SX.Over (names l) (B.Jcw i) := over_orJac hT _
  exact ⟨hv, ((hv.transp.mtimes hv).scale (hy' _ _)).add ((((hw.transp.mtimes hR).mtimes hI).mtimes hR.transp).mtimes hw)⟩

theorem over_M (hq : "q" ∈ l) (hd : "DHtable" ∈ l) (hw : "world2L0" ∈ l) (hy : "par_DYN" ∈ l) : SX.Over (names l) B.M := by
  have : ∀ k, SX.Over (names l) (B.Macc k) := by
    intro k
    induction k with
    | zero => exact SX.Over.zeros _ _
    | succ k ih => exact ih.add (over_Mi hB hq hd hw hy k).2
  exact this _

theorem over_G (hq : "q" ∈ l) (hd : "DHtable" ∈ l) (hw : "world2L0" ∈ l) (hy : "par_DYN" ∈ l) (hg : "gravity" ∈ l) :
    SX.Over (names l) B.G := by
  have : ∀ k, SX.Over (names l) (B.Gacc k) := by
    intro k
    induction k with
    | zero => exact SX.Over.zeros _ _
    | succ k ih => exact ih.add (((hB.g.over_names hg).transp.mtimes (over_Mi hB hq hd hw hy k).1).scale
        ((Expr.fv_sneg _).trans (hB.dyn.over_names hy _ _))).transp
  exact this _

omit hB [Fl] in
theorem over_stdCmatrix {S : Set Var} {M q dq sel : SX} (hM : SX.Over S M) (hdq : SX.Over S dq) (hs : SX.Over S sel) :
    SX.Over S (stdCmatrix M q dq sel) := by
  refine SX.Over.divc (SX.Over.sub (SX.Over.add ?_ (hs.mtimes (hM.jacobian _))) (hs.mtimes (hM.jacobian _)).transp) _
  intro a b
  simp only [reshapeSq]
  split_ifs
  · exact (hM.jacobian _).mtimes hdq _ _
  · simp

omit hB [Fl] in
theorem over_dqSelect {S : Set Var} {dq : SX} (hdq : SX.Over S dq) : SX.Over S (dqSelect dq) := by
  intro a b
  simp only [dqSelect]
  split_ifs
  · exact (Expr.fv_smul _ _).trans (Set.union_subset (SX.Over.eye _ _ _) (hdq _ _))
  · simp

theorem over_dq (h : "dq" ∈ l) : SX.Over (names l) B.dq := by rw [hB.dq]; exact over_sym_names h
theorem over_ddq (h : "ddq" ∈ l) : SX.Over (names l) B.ddq := by rw [hB.ddq]; exact over_sym_names h

theorem over_C (hq : "q" ∈ l) (hdq : "dq" ∈ l) (hd : "DHtable" ∈ l) (hw : "world2L0" ∈ l) (hy : "par_DYN" ∈ l) :
    SX.Over (names l) B.C :=
  over_stdCmatrix (over_M hB hq hd hw hy) (over_dq hB hdq) (over_dqSelect (over_dq hB hdq))

theorem over_Cdot (hq : "q" ∈ l) (hdq : "dq" ∈ l) (hddq : "ddq" ∈ l) (hd : "DHtable" ∈ l) (hw : "world2L0" ∈ l)
    (hy : "par_DYN" ∈ l) : SX.Over (names l) B.Cdot :=
  ((over_C hB hq hdq hd hw hy).jtimes (over_dq hB hdq) _).add ((over_C hB hq hdq hd hw hy).jtimes (over_ddq hB hddq) _)

omit hB in
theorem M_rows : B.M.rows = B.n := by
  have : ∀ k, (B.Macc k).rows = B.n := by
    intro k
    induction k with
    | zero => rfl
    | succ k ih => exact ih
  exact this _

theorem val_C {a k : Fin B.n} : SX.val ρ B.C B.n B.n a k =
    (∑ i : Fin B.n, pd ρ B.M a k i * ρ ⟨"dq", i⟩ + ∑ i : Fin B.n, pd ρ B.M a i k * ρ ⟨"dq", i⟩
        - ∑ i : Fin B.n, pd ρ B.M k i a * ρ ⟨"dq", i⟩) / 2 := by
  rw [SX.val_apply, C, hB.q, hB.dq, eval_stdCmatrix ρ B.M B.n B.M_rows a.2 k.2, Finset.sum_range, Finset.sum_range,
    Finset.sum_range]

theorem val_Cstd {a k : Fin B.n} : SX.val ρ B.Cstd B.n B.n a k = SX.val ρ B.C B.n B.n a k := by
  rw [SX.val_apply, SX.val_apply, C, Cstd, hB.q, hB.dq, eval_stdCmatrix ρ B.M B.n B.M_rows a.2 k.2,
    eval_stdCmatrixClassic ρ B.M B.n a.2 k.2]

theorem val_Mdot {a k : Fin B.n} : SX.val ρ B.Mdot B.n B.n a k = ∑ i : Fin B.n, pd ρ B.M a k i * ρ ⟨"dq", i⟩ := by
  rw [Mdot, hB.q, hB.dq, SX.val_jtimes, SX.vec_sym, SX.dval_apply, dir_dirV]
  exact Finset.sum_congr rfl fun i _ => mul_comm _ _

omit hB in
theorem pd_M_symm (hs : ∀ S, SX.Smooth S B.M) {a b : ℕ} (ha : a < B.n) (hb : b < B.n) (k : ℕ) :
    pd ρ B.M a b k = pd ρ B.M b a k := by
  have h1 := Expr.hasDerivAt_D (ρ := ρ) (v := ⟨"q", k⟩) (hs {⟨"q", k⟩} a b)
  have h2 := Expr.hasDerivAt_D (ρ := ρ) (v := ⟨"q", k⟩) (hs {⟨"q", k⟩} b a)
  rw [Expr.eval_D] at h1 h2
  have e : (fun t => Expr.eval (Function.update ρ ⟨"q", k⟩ t) (B.M.e a b)) =
      fun t => Expr.eval (Function.update ρ ⟨"q", k⟩ t) (B.M.e b a) := by
    funext t
    exact congrFun (congrFun (val_M_symm (B := B) (Function.update ρ ⟨"q", k⟩ t)) ⟨b, hb⟩) ⟨a, ha⟩
  rw [e] at h1
  exact h1.unique h2

end Base

end

end Thunder
