import Mathlib.LinearAlgebra.Matrix.NonsingularInverse
import Mathlib.Data.Real.Basic
import Mathlib.Tactic.Linarith
import Mathlib.Tactic.Positivity
import Mathlib.Algebra.Order.Chebyshev

/-!
# Linear systems with errors

Bounds for the solutions of linear systems whose matrix and right hand side carry errors, used for C76.
-/

open Matrix

namespace Thunder

variable {n : ℕ} {A B : Matrix (Fin n) (Fin n) ℝ} {ε δ ρ : ℝ}

/-- The errors of a product of a matrix and a vector. -/
theorem mulVec_near (h : ∀ i j, |B i j - A i j| ≤ δ) {v : Fin n → ℝ} {b : ℝ} (hv : ∀ i, |v i| ≤ b) (i : Fin n) :
    |(B *ᵥ v) i - (A *ᵥ v) i| ≤ n * b * δ := by
  have h1 : (B *ᵥ v) i - (A *ᵥ v) i = ∑ j, (B i j - A i j) * v j := by
    show ∑ j, B i j * v j - ∑ j, A i j * v j = _
    rw [← Finset.sum_sub_distrib]
    exact Finset.sum_congr rfl fun j _ => by ring
  rw [h1]
  calc |∑ j, (B i j - A i j) * v j| ≤ ∑ j, |(B i j - A i j) * v j| := Finset.abs_sum_le_sum_abs _ _
    _ ≤ ∑ _j : Fin n, δ * b := Finset.sum_le_sum fun j _ => by
        rw [abs_mul]
        exact mul_le_mul (h i j) (hv j) (abs_nonneg _) ((abs_nonneg _).trans (h i j))
    _ = n * b * δ := by rw [Finset.sum_const, Finset.card_univ, Fintype.card_fin, nsmul_eq_mul]; ring

/-- A matrix close to a positive definite one is positive definite, with a bound. -/
theorem below_near (hp : ∀ v, ε * (v ⬝ᵥ v) ≤ v ⬝ᵥ A *ᵥ v) (h : ∀ i j, |B i j - A i j| ≤ δ) (hd : n * δ ≤ ε / 2) (v : Fin n → ℝ) :
    ε / 2 * (v ⬝ᵥ v) ≤ v ⬝ᵥ B *ᵥ v := by
  have h1 : |v ⬝ᵥ (B - A) *ᵥ v| ≤ δ * (∑ i, |v i|) ^ 2 := by
    have e : v ⬝ᵥ (B - A) *ᵥ v = ∑ i, ∑ j, v i * ((B i j - A i j) * v j) := by
      show ∑ i, v i * ∑ j, (B - A) i j * v j = _
      exact Finset.sum_congr rfl fun i _ => by rw [Finset.mul_sum]; rfl
    rw [e, sq, Finset.sum_mul_sum, Finset.mul_sum]
    refine (Finset.abs_sum_le_sum_abs _ _).trans (Finset.sum_le_sum fun i _ => ?_)
    rw [Finset.mul_sum]
    refine (Finset.abs_sum_le_sum_abs _ _).trans (Finset.sum_le_sum fun j _ => ?_)
    rw [abs_mul, abs_mul]
    have := mul_le_mul_of_nonneg_right (h i j) (mul_nonneg (abs_nonneg (v i)) (abs_nonneg (v j)))
    calc |v i| * (|B i j - A i j| * |v j|) = |B i j - A i j| * (|v i| * |v j|) := by ring
      _ ≤ _ := this
  have h2 : (∑ i, |v i|) ^ 2 ≤ n * (v ⬝ᵥ v) := by
    have := sq_sum_le_card_mul_sum_sq (s := (Finset.univ : Finset (Fin n))) (f := fun i => |v i|)
    rw [Finset.card_univ, Fintype.card_fin] at this
    refine this.trans (le_of_eq ?_)
    congr 1
    exact Finset.sum_congr rfl fun i _ => by rw [sq_abs, sq]
  have h0 : 0 ≤ v ⬝ᵥ v := Finset.sum_nonneg fun i _ => mul_self_nonneg _
  have h3 : δ * (∑ i, |v i|) ^ 2 ≤ ε / 2 * (v ⬝ᵥ v) := by
    rcases isEmpty_or_nonempty (Fin n) with hE | ⟨⟨k⟩⟩
    · simp [dotProduct]
    have hδ : 0 ≤ δ := (abs_nonneg _).trans (h k k)
    calc δ * (∑ i, |v i|) ^ 2 ≤ δ * (n * (v ⬝ᵥ v)) := mul_le_mul_of_nonneg_left h2 hδ
      _ = n * δ * (v ⬝ᵥ v) := by ring
      _ ≤ _ := mul_le_mul_of_nonneg_right hd h0
  have h4 := hp v
  rw [sub_mulVec, dotProduct_sub] at h1
  have h5 := (abs_le.1 h1).1
  linarith

/-- The solution of a system with a positive definite matrix is small when the right hand side is small. -/
theorem solution_le (h0 : 0 < ε) (hp : ∀ v, ε * (v ⬝ᵥ v) ≤ v ⬝ᵥ A *ᵥ v) {e : Fin n → ℝ} (hr : ∀ i, |(A *ᵥ e) i| ≤ ρ) (i : Fin n) :
    |e i| ≤ (n + 1) / ε * ρ := by
  have hρ : 0 ≤ ρ := (abs_nonneg _).trans (hr i)
  have h1 : e ⬝ᵥ A *ᵥ e ≤ ρ * ∑ j, |e j| := by
    rw [Finset.mul_sum]
    refine Finset.sum_le_sum fun j _ => (le_abs_self _).trans ?_
    rw [abs_mul, mul_comm]
    exact mul_le_mul_of_nonneg_right (hr j) (abs_nonneg _)
  have h2 : (∑ i, |e i|) ^ 2 ≤ n * (e ⬝ᵥ e) := by
    have := sq_sum_le_card_mul_sum_sq (s := (Finset.univ : Finset (Fin n))) (f := fun i => |e i|)
    rw [Finset.card_univ, Fintype.card_fin] at this
    refine this.trans (le_of_eq ?_)
    congr 1
    exact Finset.sum_congr rfl fun i _ => by rw [sq_abs, sq]
  have h3 : |e i| ≤ ∑ j, |e j| := Finset.single_le_sum (f := fun j => |e j|) (fun j _ => abs_nonneg _) (Finset.mem_univ i)
  refine h3.trans ?_
  set S := ∑ j, |e j| with hS
  have hS0 : 0 ≤ S := Finset.sum_nonneg fun j _ => abs_nonneg _
  have h4 : ε * S ^ 2 ≤ n * (ρ * S) := by
    have h5 := (hp e).trans h1
    have hn : (0 : ℝ) ≤ n := Nat.cast_nonneg n
    nlinarith
  rcases hS0.eq_or_lt with e0 | e0
  · rw [← e0]
    positivity
  · have h5 : ε * S ≤ n * ρ := by
      have : ε * S * S ≤ n * ρ * S := by nlinarith
      exact le_of_mul_le_mul_right this e0
    rw [div_mul_eq_mul_div, le_div_iff₀ h0]
    nlinarith

end Thunder
