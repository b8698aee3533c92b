import Verif.Lib.Geometry
import Verif.Spec.Accuracy
import Mathlib.Analysis.InnerProductSpace.PiL2

/-!
# Products and sums of slightly wrong vectors and matrices

`NearV u m L v' v`: the vector `v` has length at most `L`, and `v'` differs from it by at most `((1 + u)^m - 1) L`.  Similarly for matrices and numbers.
In a product the exponents add up and the sizes are multiplied.
-/

open Matrix

namespace Thunder

noncomputable section

open Spec

/-! ### Lengths -/

theorem len_eq_norm (v : Fin 3 → ℝ) : len v = ‖(WithLp.toLp 2 v : EuclideanSpace ℝ (Fin 3))‖ := by
  rw [EuclideanSpace.norm_eq, len, dotProduct]
  congr 1
  refine Finset.sum_congr rfl fun i _ => ?_
  rw [Real.norm_eq_abs, sq_abs, sq]

theorem len_nonneg (v : Fin 3 → ℝ) : 0 ≤ len v := Real.sqrt_nonneg _
theorem len_add_le (v w : Fin 3 → ℝ) : len (v + w) ≤ len v + len w := by
  rw [len_eq_norm, len_eq_norm, len_eq_norm]; exact norm_add_le _ _
theorem len_smul (a : ℝ) (v : Fin 3 → ℝ) : len (a • v) = |a| * len v := by
  rw [len_eq_norm, len_eq_norm, ← Real.norm_eq_abs, ← norm_smul]; rfl
theorem len_neg (v : Fin 3 → ℝ) : len (-v) = len v := by
  rw [← neg_one_smul ℝ, len_smul, abs_neg, abs_one, one_mul]
theorem len_zero : len 0 = 0 := by rw [len, zero_dotProduct, Real.sqrt_zero]
theorem len_sq (v : Fin 3 → ℝ) : len v ^ 2 = v ⬝ᵥ v := Real.sq_sqrt (Finset.sum_nonneg fun _ _ => mul_self_nonneg _)
theorem abs_le_len (v : Fin 3 → ℝ) (i : Fin 3) : |v i| ≤ len v := by
  rw [len_eq_norm, ← Real.norm_eq_abs]
  exact PiLp.norm_apply_le (WithLp.toLp 2 v : EuclideanSpace ℝ (Fin 3)) i
theorem len_le_of_sq {v : Fin 3 → ℝ} {a : ℝ} (ha : 0 ≤ a) (h : v ⬝ᵥ v ≤ a ^ 2) : len v ≤ a := by
  rw [← abs_of_nonneg ha, ← abs_of_nonneg (len_nonneg v)]
  exact sq_le_sq.1 (by rwa [len_sq])
theorem abs_dot_le (v w : Fin 3 → ℝ) : |v ⬝ᵥ w| ≤ len v * len w := by
  refine abs_le_of_sq_le_sq ?_ (mul_nonneg (len_nonneg _) (len_nonneg _))
  rw [mul_pow, len_sq, len_sq]
  simp only [dotProduct, Fin.sum_univ_three]
  nlinarith [sq_nonneg (v 0 * w 1 - v 1 * w 0), sq_nonneg (v 0 * w 2 - v 2 * w 0), sq_nonneg (v 1 * w 2 - v 2 * w 1)]
theorem len_hat_le (v w : Fin 3 → ℝ) : len (hat v *ᵥ w) ≤ len v * len w := by
  refine len_le_of_sq (mul_nonneg (len_nonneg _) (len_nonneg _)) ?_
  rw [mul_pow, len_sq, len_sq]
  simp only [hat, mulVec, dotProduct, Fin.sum_univ_three, Matrix.of_apply, Matrix.cons_val', Matrix.cons_val_zero, Matrix.cons_val_one, Matrix.cons_val]
  nlinarith [sq_nonneg (v 0 * w 0 + v 1 * w 1 + v 2 * w 2)]
theorem len_sum_le {ι : Type*} (s : Finset ι) (f : ι → Fin 3 → ℝ) : len (∑ i ∈ s, f i) ≤ ∑ i ∈ s, len (f i) := by
  classical
  induction s using Finset.induction_on with
  | empty => simp [len_zero]
  | insert a s ha ih => rw [Finset.sum_insert ha, Finset.sum_insert ha]; exact (len_add_le _ _).trans (by linarith)

/-! ### Gaps -/

theorem gap_nonneg {u : ℝ} (hu : 0 ≤ u) (m : ℕ) : 0 ≤ gap u m := by
  have : 1 ≤ (1 + u) ^ m := one_le_pow₀ (by linarith)
  unfold gap; linarith
theorem gap_mono {u : ℝ} (hu : 0 ≤ u) {m k : ℕ} (h : m ≤ k) : gap u m ≤ gap u k := by
  have : (1 + u) ^ m ≤ (1 + u) ^ k := pow_le_pow_right₀ (by linarith) h
  unfold gap; linarith
theorem gap_add (u : ℝ) (m k : ℕ) : gap u m * (1 + gap u k) + gap u k = gap u (m + k) := by unfold gap; rw [pow_add]; ring
theorem gap_zero (u : ℝ) : gap u 0 = 0 := by unfold gap; rw [pow_zero, sub_self]

/-- The estimate behind every product. -/
theorem gap_prod {u : ℝ} (hu : 0 ≤ u) {m k : ℕ} {X Y a b da db : ℝ} (ha : a ≤ X) (hb : b ≤ Y) (h0 : 0 ≤ a) (h1 : 0 ≤ b) (h2 : 0 ≤ da)
    (hda : da ≤ gap u m * X) (hdb : db ≤ gap u k * Y) : da * (b + db) + a * db ≤ gap u (m + k) * (X * Y) := by
  have hX : 0 ≤ X := h0.trans ha
  have hY : 0 ≤ Y := h1.trans hb
  have g1 := gap_nonneg hu m
  have g2 := gap_nonneg hu k
  rw [← gap_add]
  have e1 : da * (b + db) ≤ gap u m * X * (Y + gap u k * Y) :=
    (mul_le_mul_of_nonneg_left (add_le_add hb hdb) h2).trans (mul_le_mul_of_nonneg_right hda (by positivity))
  have e2 : a * db ≤ X * (gap u k * Y) := (mul_le_mul_of_nonneg_left hdb h0).trans (mul_le_mul_of_nonneg_right ha (by positivity))
  calc da * (b + db) + a * db ≤ _ := add_le_add e1 e2
    _ = _ := by ring

/-! ### Numbers -/

structure NearS (u : ℝ) (m : ℕ) (L x' x : ℝ) : Prop where
  diff : |x' - x| ≤ gap u m * L
  size : |x| ≤ L

structure NearV (u : ℝ) (m : ℕ) (L : ℝ) (v' v : Fin 3 → ℝ) : Prop where
  diff : len (v' - v) ≤ gap u m * L
  size : len v ≤ L

structure NearM (u : ℝ) (m : ℕ) (L : ℝ) (A' A : Matrix (Fin 3) (Fin 3) ℝ) : Prop where
  diff : ∀ x, len ((A' - A) *ᵥ x) ≤ gap u m * L * len x
  size : ∀ x, len (A *ᵥ x) ≤ L * len x
  nonneg : 0 ≤ L

variable {u : ℝ} (hu : 0 ≤ u) {m k : ℕ} {L K : ℝ}

theorem NearS.nonneg {x' x : ℝ} (h : NearS u m L x' x) : 0 ≤ L := (abs_nonneg _).trans h.size
theorem NearV.nonneg {x' x} (h : NearV u m L x' x) : 0 ≤ L := (len_nonneg _).trans h.size

theorem nearS_self {x : ℝ} (h : |x| ≤ L) : NearS u 0 L x x := ⟨by rw [sub_self, abs_zero, gap_zero, zero_mul], h⟩
theorem nearV_self {v} (h : len v ≤ L) : NearV u 0 L v v := ⟨by rw [sub_self, len_zero, gap_zero, zero_mul], h⟩
theorem nearM_self {A} (hL : 0 ≤ L) (h : ∀ x, len (A *ᵥ x) ≤ L * len x) : NearM u 0 L A A :=
  ⟨fun x => by rw [sub_self, zero_mulVec, len_zero, gap_zero, zero_mul, zero_mul], h, hL⟩

include hu in
theorem NearS.mono {x' x : ℝ} (h : NearS u m L x' x) (hm : m ≤ k) (hL : L ≤ K) : NearS u k K x' x :=
  ⟨h.diff.trans (mul_le_mul (gap_mono hu hm) hL h.nonneg (gap_nonneg hu _)), h.size.trans hL⟩
include hu in
theorem NearV.mono {x' x} (h : NearV u m L x' x) (hm : m ≤ k) (hL : L ≤ K) : NearV u k K x' x :=
  ⟨h.diff.trans (mul_le_mul (gap_mono hu hm) hL h.nonneg (gap_nonneg hu _)), h.size.trans hL⟩
include hu in
theorem NearM.mono {x' x} (h : NearM u m L x' x) (hm : m ≤ k) (hL : L ≤ K) : NearM u k K x' x :=
  ⟨fun v => (h.diff v).trans (mul_le_mul_of_nonneg_right (mul_le_mul (gap_mono hu hm) hL h.nonneg (gap_nonneg hu _)) (len_nonneg _)),
    fun v => (h.size v).trans (mul_le_mul_of_nonneg_right hL (len_nonneg _)), h.nonneg.trans hL⟩

include hu in
theorem nearV_zero : NearV u m 0 0 0 := (nearV_self (by rw [len_zero])).mono hu (Nat.zero_le _) le_rfl

include hu in
theorem nearM_zero : NearM u m 0 0 0 :=
  (nearM_self le_rfl fun x => by rw [zero_mulVec, len_zero, zero_mul]).mono hu (Nat.zero_le _) le_rfl

/-! ### Sums -/

theorem NearS.add {x' x y' y : ℝ} (h : NearS u m L x' x) (g : NearS u m K y' y) : NearS u m (L + K) (x' + y') (x + y) where
  diff := by
    rw [show x' + y' - (x + y) = (x' - x) + (y' - y) by ring, mul_add]
    exact (abs_add_le _ _).trans (add_le_add h.diff g.diff)
  size := (abs_add_le _ _).trans (add_le_add h.size g.size)
theorem NearV.add {x' x y' y} (h : NearV u m L x' x) (g : NearV u m K y' y) : NearV u m (L + K) (x' + y') (x + y) where
  diff := by
    rw [show x' + y' - (x + y) = (x' - x) + (y' - y) by abel, mul_add]
    exact (len_add_le _ _).trans (add_le_add h.diff g.diff)
  size := (len_add_le _ _).trans (add_le_add h.size g.size)
theorem NearM.add {x' x y' y} (h : NearM u m L x' x) (g : NearM u m K y' y) : NearM u m (L + K) (x' + y') (x + y) where
  diff := fun v => by
    rw [show x' + y' - (x + y) = (x' - x) + (y' - y) by abel, mul_add, add_mul, add_mulVec]
    exact (len_add_le _ _).trans (add_le_add (h.diff v) (g.diff v))
  size := fun v => by
    rw [add_mulVec, add_mul]
    exact (len_add_le _ _).trans (add_le_add (h.size v) (g.size v))
  nonneg := add_nonneg h.nonneg g.nonneg
theorem NearV.neg {x' x} (h : NearV u m L x' x) : NearV u m L (-x') (-x) where
  diff := by rw [show -x' - -x = -(x' - x) by abel, len_neg]; exact h.diff
  size := by rw [len_neg]; exact h.size
theorem NearV.sub {x' x y' y} (h : NearV u m L x' x) (g : NearV u m K y' y) : NearV u m (L + K) (x' - y') (x - y) := by
  rw [sub_eq_add_neg, sub_eq_add_neg]; exact h.add g.neg
theorem NearS.neg {x' x : ℝ} (h : NearS u m L x' x) : NearS u m L (-x') (-x) where
  diff := by rw [show -x' - -x = -(x' - x) by ring, abs_neg]; exact h.diff
  size := by rw [abs_neg]; exact h.size
theorem NearS.sub {x' x y' y : ℝ} (h : NearS u m L x' x) (g : NearS u m K y' y) : NearS u m (L + K) (x' - y') (x - y) := by
  rw [sub_eq_add_neg, sub_eq_add_neg]; exact h.add g.neg
theorem NearS.sum {ι : Type*} {s : Finset ι} {L : ι → ℝ} {f' f : ι → ℝ} (h : ∀ i ∈ s, NearS u m (L i) (f' i) (f i)) :
    NearS u m (∑ i ∈ s, L i) (∑ i ∈ s, f' i) (∑ i ∈ s, f i) where
  diff := by
    rw [← Finset.sum_sub_distrib, Finset.mul_sum]
    exact (Finset.abs_sum_le_sum_abs _ _).trans (Finset.sum_le_sum fun i hi => (h i hi).diff)
  size := (Finset.abs_sum_le_sum_abs _ _).trans (Finset.sum_le_sum fun i hi => (h i hi).size)

/-! ### Products -/

theorem NearV.smul {x' x} (h : NearV u m L x' x) (a : ℝ) : NearV u m (|a| * L) (a • x') (a • x) where
  diff := by
    rw [← smul_sub, len_smul, mul_left_comm]
    exact mul_le_mul_of_nonneg_left h.diff (abs_nonneg _)
  size := by rw [len_smul]; exact mul_le_mul_of_nonneg_left h.size (abs_nonneg _)
theorem NearM.smul {x' x} (h : NearM u m L x' x) (a : ℝ) : NearM u m (|a| * L) (a • x') (a • x) where
  diff := fun v => by
    rw [← smul_sub, smul_mulVec, len_smul, mul_left_comm, mul_assoc]
    exact mul_le_mul_of_nonneg_left (h.diff v) (abs_nonneg _)
  size := fun v => by rw [smul_mulVec, len_smul, mul_assoc]; exact mul_le_mul_of_nonneg_left (h.size v) (abs_nonneg _)
  nonneg := mul_nonneg (abs_nonneg _) h.nonneg
theorem NearS.mul_left {x' x : ℝ} (h : NearS u m L x' x) (a : ℝ) : NearS u m (|a| * L) (a * x') (a * x) where
  diff := by
    rw [← mul_sub, abs_mul, mul_left_comm]
    exact mul_le_mul_of_nonneg_left h.diff (abs_nonneg _)
  size := by rw [abs_mul]; exact mul_le_mul_of_nonneg_left h.size (abs_nonneg _)

include hu

theorem NearV.hat {x' x y' y} (h : NearV u m L x' x) (g : NearV u k K y' y) :
    NearV u (m + k) (L * K) (Thunder.hat x' *ᵥ y') (Thunder.hat x *ᵥ y) where
  diff := by
    have e : Thunder.hat x' *ᵥ y' - Thunder.hat x *ᵥ y = Thunder.hat (x' - x) *ᵥ y' + Thunder.hat x *ᵥ (y' - y) := by
      have : x' = (x' - x) + x := by abel
      rw [mulVec_sub]
      conv_lhs => rw [this, hat_add, add_mulVec]
      abel
    have hy : len y' ≤ len y + len (y' - y) := by
      have := len_add_le y (y' - y)
      rwa [add_sub_cancel] at this
    rw [e]
    refine (len_add_le _ _).trans ((add_le_add (len_hat_le _ _) (len_hat_le _ _)).trans ?_)
    refine (add_le_add_left (mul_le_mul_of_nonneg_left hy (len_nonneg _)) _).trans ?_
    exact gap_prod hu h.size g.size (len_nonneg _) (len_nonneg _) (len_nonneg _) h.diff g.diff
  size := (len_hat_le _ _).trans (mul_le_mul h.size g.size (len_nonneg _) h.nonneg)

theorem NearV.dot {x' x y' y} (h : NearV u m L x' x) (g : NearV u k K y' y) : NearS u (m + k) (L * K) (x' ⬝ᵥ y') (x ⬝ᵥ y) where
  diff := by
    have e : x' ⬝ᵥ y' - x ⬝ᵥ y = (x' - x) ⬝ᵥ y' + x ⬝ᵥ (y' - y) := by
      rw [sub_dotProduct, dotProduct_sub]; ring
    have hy : len y' ≤ len y + len (y' - y) := by
      have := len_add_le y (y' - y)
      rwa [add_sub_cancel] at this
    rw [e]
    refine (abs_add_le _ _).trans ((add_le_add (abs_dot_le _ _) (abs_dot_le _ _)).trans ?_)
    refine (add_le_add_left (mul_le_mul_of_nonneg_left hy (len_nonneg _)) _).trans ?_
    exact gap_prod hu h.size g.size (len_nonneg _) (len_nonneg _) (len_nonneg _) h.diff g.diff
  size := (abs_dot_le _ _).trans (mul_le_mul h.size g.size (len_nonneg _) h.nonneg)

theorem NearM.mulVec {A' A y' y} (h : NearM u m L A' A) (g : NearV u k K y' y) : NearV u (m + k) (L * K) (A' *ᵥ y') (A *ᵥ y) where
  diff := by
    have e : A' *ᵥ y' - A *ᵥ y = (A' - A) *ᵥ y' + A *ᵥ (y' - y) := by
      rw [sub_mulVec, mulVec_sub]; abel
    have hy : len y' ≤ len y + len (y' - y) := by
      have := len_add_le y (y' - y)
      rwa [add_sub_cancel] at this
    have hg := gap_nonneg hu m
    have hk := gap_nonneg hu k
    have hL := h.nonneg
    have hK := g.nonneg
    rw [e]
    refine (len_add_le _ _).trans ((add_le_add (h.diff _) (h.size _)).trans ?_)
    refine (add_le_add_left (mul_le_mul_of_nonneg_left hy (by positivity)) _).trans ?_
    exact gap_prod hu le_rfl g.size hL (len_nonneg _) (by positivity) le_rfl g.diff
  size := (h.size _).trans (mul_le_mul_of_nonneg_left g.size h.nonneg)

theorem NearM.mul {A' A B' B} (h : NearM u m L A' A) (g : NearM u k K B' B) : NearM u (m + k) (L * K) (A' * B') (A * B) where
  diff := fun x => by
    have := (h.mulVec hu (⟨?_, g.size x⟩ : NearV u k (K * len x) (B' *ᵥ x) (B *ᵥ x))).diff
    · rw [sub_mulVec, ← mulVec_mulVec, ← mulVec_mulVec]
      exact this.trans (le_of_eq (by ring))
    · rw [← sub_mulVec]
      exact (g.diff x).trans (le_of_eq (by ring))
  size := fun x => by
    rw [← mulVec_mulVec, mul_assoc]
    exact (h.size _).trans (mul_le_mul_of_nonneg_left (g.size x) h.nonneg)
  nonneg := mul_nonneg h.nonneg g.nonneg

omit hu in
theorem len_transpose {A : Matrix (Fin 3) (Fin 3) ℝ} (hL : 0 ≤ L) (h : ∀ x, len (A *ᵥ x) ≤ L * len x) (x : Fin 3 → ℝ) : len (Aᵀ *ᵥ x) ≤ L * len x := by
  by_cases h0 : len (Aᵀ *ᵥ x) = 0
  · rw [h0]; exact mul_nonneg hL (len_nonneg _)
  · have hpos : 0 < len (Aᵀ *ᵥ x) := lt_of_le_of_ne (len_nonneg _) (Ne.symm h0)
    have h1 : len (Aᵀ *ᵥ x) ^ 2 ≤ len x * (L * len (Aᵀ *ᵥ x)) := by
      rw [len_sq]
      have e : Aᵀ *ᵥ x ⬝ᵥ Aᵀ *ᵥ x = x ⬝ᵥ A *ᵥ (Aᵀ *ᵥ x) := by
        rw [dotProduct_mulVec x, ← mulVec_transpose]
      rw [e]
      exact (le_abs_self _).trans ((abs_dot_le _ _).trans (mul_le_mul_of_nonneg_left (h _) (len_nonneg _)))
    nlinarith

theorem NearM.transpose {A' A} (h : NearM u m L A' A) : NearM u m L A'ᵀ Aᵀ where
  diff := fun x => by
    rw [← transpose_sub]
    exact len_transpose (mul_nonneg (gap_nonneg hu m) h.nonneg) h.diff x
  size := len_transpose h.nonneg h.size
  nonneg := h.nonneg

end

end Thunder
