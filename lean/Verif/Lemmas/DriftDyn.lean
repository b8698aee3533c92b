import Verif.Lemmas.Drift
import Verif.Lemmas.Energy

/-!
# The dynamics of two chains whose angles differ slightly
-/

open Matrix

namespace Thunder

noncomputable section

open Spec

set_option linter.unusedSectionVars false

namespace Base

variable [Fl] (B : Base) (ρ δ : Var → ℝ)

/-- Upper bound of the distance of the centre of mass of link `i` from an earlier joint, plus one. -/
def arm (i : ℕ) : ℝ := 1 + (∑ k ∈ Finset.range (i + 1), B.off ρ k + len (B.comV ρ i))

/-- Columns of the Jacobians of the centres of mass. -/
def pcol (i a : ℕ) : Fin 3 → ℝ := if a ≤ i then SX.vec ρ (B.posCol (B.Ocm i) a) 3 else 0
def ocol (i a : ℕ) : Fin 3 → ℝ := if a ≤ i then SX.vec ρ (B.orCol a) 3 else 0
/-- … the latter in the frame of the link. -/
def lcol (i a : ℕ) : Fin 3 → ℝ := (B.rotV ρ (i + 1))ᵀ *ᵥ B.ocol ρ i a

/-- Derivatives of the columns. -/
def dpcol (i a : ℕ) : Fin 3 → ℝ := if a ≤ i then SX.dvec ρ δ (B.posCol (B.Ocm i) a) 3 else 0
def docol (i a : ℕ) : Fin 3 → ℝ := if a ≤ i then SX.dvec ρ δ (B.orCol a) 3 else 0
def dlcol (i a : ℕ) : Fin 3 → ℝ := (SX.dval ρ δ (B.R0 (i + 1)) 3 3)ᵀ *ᵥ B.ocol ρ i a + (B.rotV ρ (i + 1))ᵀ *ᵥ B.docol ρ δ i a

variable {B}

theorem col_jv (i : ℕ) (a : Fin B.n) : (fun x => B.jv ρ i x a) = B.pcol ρ i a := by
  ext x
  rw [jv, Jcv, val_posJac, pcol]
  split_ifs <;> rfl
theorem col_jw (i : ℕ) (a : Fin B.n) : (fun x => B.jw ρ i x a) = B.ocol ρ i a := by
  ext x
  rw [jw, Jcw, val_orJac, ocol]
  split_ifs <;> rfl

theorem dval_posJac (O : SX) (im : ℕ) (a : Fin 3) (j : Fin B.n) :
    SX.dval ρ δ (B.posJac O im) 3 B.n a j = if (j : ℕ) ≤ im then SX.dvec ρ δ (B.posCol O j) 3 a else 0 := by
  simp only [SX.dval_apply, posJac, j.2, and_true, SX.dvec_apply]
  split_ifs <;> simp
theorem dval_orJac (im : ℕ) (a : Fin 3) (j : Fin B.n) :
    SX.dval ρ δ (B.orJac im) 3 B.n a j = if (j : ℕ) ≤ im then SX.dvec ρ δ (B.orCol j) 3 a else 0 := by
  simp only [SX.dval_apply, orJac, j.2, and_true, SX.dvec_apply]
  split_ifs <;> simp

theorem col_djv (i : ℕ) (a : Fin B.n) : (fun x => SX.dval ρ δ (B.Jcv i) 3 B.n x a) = B.dpcol ρ δ i a := by
  ext x
  rw [Jcv, dval_posJac, dpcol]
  split_ifs <;> rfl
theorem col_djw (i : ℕ) (a : Fin B.n) : (fun x => SX.dval ρ δ (B.Jcw i) 3 B.n x a) = B.docol ρ δ i a := by
  ext x
  rw [Jcw, dval_orJac, docol]
  split_ifs <;> rfl

omit [Fl] in
theorem tmul_apply {m : ℕ} (A C : Matrix (Fin 3) (Fin m) ℝ) (a b : Fin m) : (Aᵀ * C) a b = (fun x => A x a) ⬝ᵥ fun x => C x b := by
  rw [Matrix.mul_apply]; rfl
omit [Fl] in
theorem col_mul {m : ℕ} (R : Matrix (Fin 3) (Fin 3) ℝ) (C : Matrix (Fin 3) (Fin m) ℝ) (b : Fin m) : (fun x => (R * C) x b) = R *ᵥ fun x => C x b := by
  ext x; rw [Matrix.mul_apply]; rfl

/-- The entries of the mass matrix. -/
theorem M_apply (a b : Fin B.n) : Expr.eval ρ (B.M.e a b) = ∑ i ∈ Finset.range B.n,
    (B.massV ρ i * (B.pcol ρ i a ⬝ᵥ B.pcol ρ i b) + B.lcol ρ i a ⬝ᵥ B.inertiaV ρ i *ᵥ B.lcol ρ i b) := by
  have e := congrFun (congrFun (val_M (B := B) ρ) a) b
  rw [SX.val_apply] at e
  rw [e, Matrix.sum_apply]
  refine Finset.sum_congr rfl fun i _ => ?_
  rw [val_Mi, Matrix.add_apply, Matrix.smul_apply, smul_eq_mul, tmul_apply, col_jv, col_jv]
  congr 1
  have : (B.jw ρ i)ᵀ * B.rotV ρ (i + 1) * B.inertiaV ρ i * (B.rotV ρ (i + 1))ᵀ * B.jw ρ i =
      ((B.rotV ρ (i + 1))ᵀ * B.jw ρ i)ᵀ * (B.inertiaV ρ i * ((B.rotV ρ (i + 1))ᵀ * B.jw ρ i)) := by
    rw [transpose_mul, transpose_transpose]; simp only [Matrix.mul_assoc]
  rw [this, tmul_apply, col_mul, col_mul, col_mul, col_jw, col_jw]
  rfl

theorem dM_apply (hB : B.WF) (hδ : QDir δ) (a b : Fin B.n) : Expr.dir ρ δ (B.M.e a b) = ∑ i ∈ Finset.range B.n,
    (B.massV ρ i * (B.dpcol ρ δ i a ⬝ᵥ B.pcol ρ i b + B.pcol ρ i a ⬝ᵥ B.dpcol ρ δ i b) +
      (B.dlcol ρ δ i a ⬝ᵥ B.inertiaV ρ i *ᵥ B.lcol ρ i b + B.lcol ρ i a ⬝ᵥ B.inertiaV ρ i *ᵥ B.dlcol ρ δ i b)) := by
  have hacc : ∀ k, SX.dval ρ δ (B.Macc k) B.n B.n = ∑ i ∈ Finset.range k, SX.dval ρ δ (B.Mi i) B.n B.n := by
    intro k
    induction k with
    | zero => simp [Macc]
    | succ k ih => rw [Macc, SX.dval_add, ih, Finset.sum_range_succ]
  have e := congrFun (congrFun (hacc B.n) a) b
  rw [Matrix.sum_apply] at e
  refine Eq.trans (b := SX.dval ρ δ (B.Macc B.n) B.n B.n a b) rfl (e.trans (Finset.sum_congr rfl fun i _ => ?_))
  have hm : Expr.dir ρ δ (B.mass i) = 0 := hB.dyn.dir hδ (by decide) ρ _ _
  have hI : SX.dval ρ δ (B.inertia i) 3 3 = 0 := by
    show SX.dval ρ δ (mat33 _ _ _ _ _ _ _ _ _) 3 3 = 0
    rw [dval_mat33]
    simp only [hB.dyn.dir hδ (by decide) ρ]
    ext x y; fin_cases x <;> fin_cases y <;> rfl
  have hd : SX.dval ρ δ (B.Mi i) B.n B.n = B.massV ρ i • ((SX.dval ρ δ (B.Jcv i) 3 B.n)ᵀ * B.jv ρ i + (B.jv ρ i)ᵀ * SX.dval ρ δ (B.Jcv i) 3 B.n) +
      ((((SX.dval ρ δ (B.R0 (i + 1)) 3 3)ᵀ * B.jw ρ i + (B.rotV ρ (i + 1))ᵀ * SX.dval ρ δ (B.Jcw i) 3 B.n))ᵀ *
        (B.inertiaV ρ i * ((B.rotV ρ (i + 1))ᵀ * B.jw ρ i)) +
       ((B.rotV ρ (i + 1))ᵀ * B.jw ρ i)ᵀ * (B.inertiaV ρ i *
        ((SX.dval ρ δ (B.R0 (i + 1)) 3 3)ᵀ * B.jw ρ i + (B.rotV ρ (i + 1))ᵀ * SX.dval ρ δ (B.Jcw i) 3 B.n))) := by
    unfold jv jw rotV inertiaV massV
    rw [Mi, SX.dval_add, SX.dval_scale, hm, zero_smul, zero_add, SX.dval_mtimes ρ δ _ _ B.n 3 B.n rfl, SX.dval_mtimes ρ δ _ _ B.n 3 B.n rfl,
      SX.dval_mtimes ρ δ _ _ B.n 3 3 rfl, SX.dval_mtimes ρ δ _ _ B.n 3 3 rfl, SX.dval_mtimes ρ δ _ _ B.n 3 3 rfl, hI]
    rw [SX.val_mtimes ρ (SX.mtimes (SX.mtimes (SX.transp (B.Jcw i)) (B.R0 (i + 1))) (B.inertia i)) _ B.n 3 3 rfl,
      SX.val_mtimes ρ (SX.mtimes (SX.transp (B.Jcw i)) (B.R0 (i + 1))) _ B.n 3 3 rfl, SX.val_mtimes ρ (SX.transp (B.Jcw i)) _ B.n 3 3 rfl]
    simp only [SX.val_transp, SX.dval_transp]
    congr 1
    simp only [transpose_add, transpose_mul, transpose_transpose, Matrix.mul_add, Matrix.add_mul, Matrix.mul_assoc, Matrix.mul_zero, add_zero]
    abel
  have hcol : ∀ a : Fin B.n, (fun x => ((SX.dval ρ δ (B.R0 (i + 1)) 3 3)ᵀ * B.jw ρ i + (B.rotV ρ (i + 1))ᵀ * SX.dval ρ δ (B.Jcw i) 3 B.n) x a) =
      B.dlcol ρ δ i a := by
    intro a
    rw [dlcol, ← col_jw, ← col_djw, ← col_mul, ← col_mul]
    rfl
  rw [hd, Matrix.add_apply, Matrix.smul_apply, smul_eq_mul, Matrix.add_apply, Matrix.add_apply, tmul_apply, tmul_apply, tmul_apply, tmul_apply, col_mul,
    col_mul, hcol, col_jv, col_jv, col_djv, col_djv, col_mul, col_mul, col_jw, col_jw, hcol]
  rfl

theorem G_apply (hB : B.WF) (a : Fin B.n) : Expr.eval ρ (B.G.e a 0) = ∑ i ∈ Finset.range B.n, -B.massV ρ i * (B.pcol ρ i a ⬝ᵥ SX.vec ρ B.g 3) := by
  have e := congrFun (g_rows_G (B := B) ρ hB.g.rows) a
  rw [SX.vec_apply] at e
  rw [e, Finset.sum_apply]
  refine Finset.sum_congr rfl fun i _ => ?_
  rw [Pi.smul_apply, smul_eq_mul, ← col_jv]
  rfl

end Base

/-! ### Comparison of two chains -/

theorem entries_nonneg (A : Matrix (Fin 3) (Fin 3) ℝ) : 0 ≤ entries A := Finset.sum_nonneg fun _ _ => Finset.sum_nonneg fun _ _ => abs_nonneg _

theorem len_le_sum (v : Fin 3 → ℝ) : len v ≤ ∑ i, |v i| := by
  refine len_le_of_sq (Finset.sum_nonneg fun _ _ => abs_nonneg _) ?_
  simp only [dotProduct, Fin.sum_univ_three]
  nlinarith [sq_abs (v 0), sq_abs (v 1), sq_abs (v 2), abs_nonneg (v 0), abs_nonneg (v 1), abs_nonneg (v 2),
    mul_nonneg (abs_nonneg (v 0)) (abs_nonneg (v 1)), mul_nonneg (abs_nonneg (v 0)) (abs_nonneg (v 2)), mul_nonneg (abs_nonneg (v 1)) (abs_nonneg (v 2))]

theorem len_mulVec_le (A : Matrix (Fin 3) (Fin 3) ℝ) (x : Fin 3 → ℝ) : len (A *ᵥ x) ≤ entries A * len x := by
  refine (len_le_sum _).trans ?_
  rw [entries, Finset.sum_mul]
  refine Finset.sum_le_sum fun i _ => ?_
  rw [mulVec, dotProduct, Finset.sum_mul]
  refine (Finset.abs_sum_le_sum_abs _ _).trans (Finset.sum_le_sum fun j _ => ?_)
  rw [abs_mul]
  exact mul_le_mul_of_nonneg_left (abs_le_len x j) (abs_nonneg _)

theorem nearM_entries {u : ℝ} (A : Matrix (Fin 3) (Fin 3) ℝ) : NearM u 0 (entries A) A A := nearM_self (entries_nonneg A) (len_mulVec_le A)

theorem off_nonneg [Fl] (B : Base) (ρ : Var → ℝ) (i : ℕ) : 0 ≤ B.off ρ i := add_nonneg (abs_nonneg _) (abs_nonneg _)
theorem sum_off_nonneg [Fl] (B : Base) (ρ : Var → ℝ) (s : Finset ℕ) : 0 ≤ ∑ k ∈ s, B.off ρ k := Finset.sum_nonneg fun k _ => off_nonneg B ρ k
theorem one_le_arm [Fl] (B : Base) (ρ : Var → ℝ) (i : ℕ) : 1 ≤ B.arm ρ i :=
  le_add_of_nonneg_right (add_nonneg (sum_off_nonneg B ρ _) (len_nonneg _))

namespace Close

variable {u : ℝ} (hu : 0 ≤ u) [Fl] {B B₀ : Base} {ρ ρ₀ : Var → ℝ} (h : Close u B ρ B₀ ρ₀)
include h hu

theorem com_pos {i j : ℕ} (hj : j ≤ i) (hi : i < B.n) : NearV u (2 * (i + 1) + 3) (∑ k ∈ Finset.range (i + 1), B.off ρ k + len (B.comV ρ i))
    (SX.vec ρ (B.Ocm i) 3 - B.posV ρ (j + 1)) (SX.vec ρ₀ (B₀.Ocm i) 3 - B₀.posV ρ₀ (j + 1)) := by
  have h1 := h.span hu (show j + 1 ≤ i + 1 by omega) (show i + 1 ≤ B.n by omega)
  have h2 := (h.R hu (i := i + 1) hi).mulVec hu (nearV_self (u := u) (le_refl (len (B.comV ρ i))))
  rw [one_mul] at h2
  rw [Base.vec_Ocm, Base.vec_Ocm, ← h.com i hi, add_sub_right_comm, add_sub_right_comm]
  refine (h1.add h2).mono hu le_rfl (add_le_add_left ?_ _)
  refine Finset.sum_le_sum_of_subset_of_nonneg (fun k hk => ?_) fun k _ _ => off_nonneg B ρ k
  rw [Finset.mem_range]
  exact (Finset.mem_Ico.1 hk).2

theorem pcol {i : ℕ} (hi : i < B.n) (a : ℕ) : NearV u (2 * (2 * B.n + 3)) (B.arm ρ i) (B.pcol ρ i a) (B₀.pcol ρ₀ i a) := by
  unfold Base.pcol
  split_ifs with ha
  · exact (h.posCol hu (j := a) (by omega) (add_nonneg (sum_off_nonneg B ρ _) (len_nonneg _)) (h.com_pos hu ha hi)).mono hu (by omega) le_rfl
  · exact (nearV_zero hu).mono hu le_rfl (zero_le_one.trans (one_le_arm B ρ i))

theorem ocol {i : ℕ} (hi : i < B.n) (a : ℕ) : NearV u (2 * B.n + 3) 1 (B.ocol ρ i a) (B₀.ocol ρ₀ i a) := by
  unfold Base.ocol
  split_ifs with ha
  · exact (h.orCol hu (j := a) (by omega)).mono hu (by omega) le_rfl
  · exact (nearV_zero hu).mono hu le_rfl zero_le_one

theorem lcol {i : ℕ} (hi : i < B.n) (a : ℕ) : NearV u (2 * (2 * B.n + 3)) 1 (B.lcol ρ i a) (B₀.lcol ρ₀ i a) := by
  have := ((h.R hu (i := i + 1) hi).transpose hu).mulVec hu (h.ocol hu hi a)
  rw [one_mul] at this
  exact this.mono hu (by omega) le_rfl

/-- One link of the mass matrix. -/
theorem Mi {i : ℕ} (hi : i < B.n) (a b : ℕ) : NearS u (4 * (2 * B.n + 3)) (|B.massV ρ i| * B.arm ρ i ^ 2 + entries (B.inertiaV ρ i))
    (B.massV ρ i * (B.pcol ρ i a ⬝ᵥ B.pcol ρ i b) + B.lcol ρ i a ⬝ᵥ B.inertiaV ρ i *ᵥ B.lcol ρ i b)
    (B₀.massV ρ₀ i * (B₀.pcol ρ₀ i a ⬝ᵥ B₀.pcol ρ₀ i b) + B₀.lcol ρ₀ i a ⬝ᵥ B₀.inertiaV ρ₀ i *ᵥ B₀.lcol ρ₀ i b) := by
  have h1 := ((h.pcol hu hi a).dot hu (h.pcol hu hi b)).mul_left (B.massV ρ i)
  have h2 := (h.lcol hu hi a).dot hu ((nearM_entries (B.inertiaV ρ i)).mulVec hu (h.lcol hu hi b))
  rw [← h.mass i hi, ← h.inertia i hi]
  refine (h1.mono hu (by omega) (le_of_eq (by ring))).add (h2.mono hu (by omega) (le_of_eq (by ring)))

theorem M (a b : Fin B.n) : NearS u (4 * (2 * B.n + 3)) (∑ i ∈ Finset.range B.n, (|B.massV ρ i| * B.arm ρ i ^ 2 + entries (B.inertiaV ρ i)))
    (Expr.eval ρ (B.M.e a b)) (Expr.eval ρ₀ (B₀.M.e a b)) := by
  have e := Base.M_apply (B := B₀) ρ₀ (Fin.cast h.n.symm a) (Fin.cast h.n.symm b)
  simp only [Fin.val_cast, h.n] at e
  rw [Base.M_apply, e]
  exact NearS.sum fun i hi => h.Mi hu (Finset.mem_range.1 hi) a b

theorem G (a : Fin B.n) : NearS u (2 * (2 * B.n + 3)) (∑ i ∈ Finset.range B.n, |B.massV ρ i| * (B.arm ρ i * len (SX.vec ρ B.g 3)))
    (Expr.eval ρ (B.G.e a 0)) (Expr.eval ρ₀ (B₀.G.e a 0)) := by
  have e := Base.G_apply (B := B₀) ρ₀ h.wf₀ (Fin.cast h.n.symm a)
  simp only [Fin.val_cast, h.n] at e
  rw [Base.G_apply _ h.wf, e]
  refine NearS.sum fun i hi => ?_
  have hi := Finset.mem_range.1 hi
  rw [← h.mass i hi, ← h.g, ← abs_neg]
  exact (((h.pcol hu hi a).dot hu (nearV_self (u := u) (le_refl (len (SX.vec ρ B.g 3))))).mul_left (-B.massV ρ i)).mono hu (by omega) le_rfl

end Close

end

end Thunder
