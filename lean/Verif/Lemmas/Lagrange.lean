import Verif.Lemmas.Energy
import Mathlib.Analysis.Calculus.Deriv.Pow
import Mathlib.Algebra.BigOperators.Field

/-!
# Calculus of quadratic forms used for the Euler–Lagrange equation
-/

set_option linter.unusedSectionVars false

open scoped Classical
open Matrix

namespace Thunder

noncomputable section

theorem quad_expand {n : ℕ} (A : Matrix (Fin n) (Fin n) ℝ) (v : Fin n → ℝ) :
    v ⬝ᵥ A *ᵥ v = ∑ a, ∑ b, v a * A a b * v b := by
  simp only [dotProduct, mulVec, Finset.mul_sum, mul_assoc]

/-- Derivative of `½ vᵀ A v` when `v` and `A` (symmetric) move. -/
theorem hasDerivAt_quad {n : ℕ} {A : ℝ → Matrix (Fin n) (Fin n) ℝ} {A' : Matrix (Fin n) (Fin n) ℝ} {v : ℝ → Fin n → ℝ}
    {v' : Fin n → ℝ} {t : ℝ} (hA : ∀ a b, HasDerivAt (fun s => A s a b) (A' a b) t)
    (hv : ∀ a, HasDerivAt (fun s => v s a) (v' a) t) (hs : (A t)ᵀ = A t) :
    HasDerivAt (fun s => 1 / 2 * (v s ⬝ᵥ A s *ᵥ v s)) (v' ⬝ᵥ A t *ᵥ v t + 1 / 2 * (v t ⬝ᵥ A' *ᵥ v t)) t := by
  have h : HasDerivAt (fun s => 1 / 2 * (∑ a, ∑ b, v s a * A s a b * v s b))
      (1 / 2 * (∑ a, ∑ b, ((v' a * A t a b + v t a * A' a b) * v t b + v t a * A t a b * v' b))) t := by
    refine HasDerivAt.const_mul _ (HasDerivAt.fun_sum fun a _ => HasDerivAt.fun_sum fun b _ => ?_)
    exact ((hv a).mul (hA a b)).mul (hv b)
  simp only [quad_expand]
  have e : v' ⬝ᵥ A t *ᵥ v t = ∑ a, ∑ b, v' a * A t a b * v t b := by
    simp only [dotProduct, mulVec, Finset.mul_sum, mul_assoc]
  have e2 : ∑ a, ∑ b, v t a * A t a b * v' b = ∑ a, ∑ b, v' a * A t a b * v t b := by
    rw [Finset.sum_comm]
    refine Finset.sum_congr rfl fun a _ => Finset.sum_congr rfl fun b _ => ?_
    have : A t b a = A t a b := congrFun (congrFun hs a) b
    rw [this]; ring
  rw [e]
  have : 1 / 2 * (∑ a, ∑ b, ((v' a * A t a b + v t a * A' a b) * v t b + v t a * A t a b * v' b)) =
      ∑ a, ∑ b, v' a * A t a b * v t b + 1 / 2 * ∑ a, ∑ b, v t a * A' a b * v t b := by
    simp only [add_mul, Finset.sum_add_distrib]
    rw [e2]; ring
  rw [← this]
  exact h

theorem hasDerivAt_update {n : ℕ} (q : Fin n → ℝ) (k i : Fin n) :
    HasDerivAt (fun x : ℝ => Function.update q k x i) ((Pi.single k 1 : Fin n → ℝ) i) (q k) := by
  by_cases h : i = k
  · subst h
    simp only [Function.update_self, Pi.single_eq_same]
    exact hasDerivAt_id _
  · simp only [Function.update_of_ne h, Pi.single_eq_of_ne h]
    exact hasDerivAt_const _ _

namespace Base

variable [Fl] {B : Base} (hB : B.WF)
include hB

theorem over_M_q : SX.Over (names ["q", "DHtable", "world2L0", "par_DYN"]) B.M :=
  over_M hB (by decide) (by decide) (by decide) (by decide)

/-- `M(q)` does not depend on other state symbols. -/
theorem val_M_env {ρ σ : Var → ℝ} (h : ∀ v : Var, v.name ∈ ["q", "DHtable", "world2L0", "par_DYN"] → ρ v = σ v) :
    SX.val ρ B.M B.n B.n = SX.val σ B.M B.n B.n := by
  ext a b
  exact Expr.eval_congr fun v hv => h v (over_M_q hB _ _ hv)

theorem val_M_dq (ρ : Var → ℝ) (x y : Fin B.n → ℝ) :
    SX.val (setV "q" (setV "dq" ρ y) x) B.M B.n B.n = SX.val (setV "q" ρ x) B.M B.n B.n := by
  rw [setV_comm (by decide), val_setV_of_not_mem (over_M_q hB) (by decide)]

theorem over_G_q : SX.Over (names ["q", "DHtable", "world2L0", "par_DYN", "gravity"]) B.G :=
  over_G hB (by decide) (by decide) (by decide) (by decide) (by decide)

theorem vec_G_dq (ρ : Var → ℝ) (x y : Fin B.n → ℝ) :
    SX.vec (setV "q" (setV "dq" ρ y) x) B.G B.n = SX.vec (setV "q" ρ x) B.G B.n := by
  funext k
  have h := val_setV_of_not_mem (over_G_q hB) (name := "dq") (by decide) (setV "q" ρ x) y B.n 1
  rw [setV_comm (by decide)]
  exact congrFun (congrFun h k) 0

/-- `Ṁ v - C v` is the partial derivative of the kinetic energy. -/
theorem coriolis_identity (ρ : Var → ℝ) (k : Fin B.n) :
    (SX.val ρ B.Mdot B.n B.n *ᵥ fun i => ρ ⟨"dq", i⟩) k - (SX.val ρ B.C B.n B.n *ᵥ fun i => ρ ⟨"dq", i⟩) k =
      1 / 2 * ∑ a : Fin B.n, ∑ b : Fin B.n, ρ ⟨"dq", a⟩ * pd ρ B.M a b k * ρ ⟨"dq", b⟩ := by
  simp only [mulVec, dotProduct, val_Mdot ρ hB, val_C ρ hB]
  have e1 : ∑ x : Fin B.n, ((∑ i : Fin B.n, pd ρ B.M k x i * ρ ⟨"dq", i⟩ + ∑ i : Fin B.n, pd ρ B.M k i x * ρ ⟨"dq", i⟩ -
      ∑ i : Fin B.n, pd ρ B.M x i k * ρ ⟨"dq", i⟩) / 2) * ρ ⟨"dq", x⟩ =
      1 / 2 * ∑ x : Fin B.n, ∑ i : Fin B.n, pd ρ B.M k x i * ρ ⟨"dq", i⟩ * ρ ⟨"dq", x⟩ +
      1 / 2 * ∑ x : Fin B.n, ∑ i : Fin B.n, pd ρ B.M k i x * ρ ⟨"dq", i⟩ * ρ ⟨"dq", x⟩ -
      1 / 2 * ∑ x : Fin B.n, ∑ i : Fin B.n, pd ρ B.M x i k * ρ ⟨"dq", i⟩ * ρ ⟨"dq", x⟩ := by
    simp only [Finset.mul_sum]
    rw [← Finset.sum_add_distrib, ← Finset.sum_sub_distrib]
    refine Finset.sum_congr rfl fun x _ => ?_
    rw [← Finset.sum_add_distrib, ← Finset.sum_sub_distrib, ← Finset.sum_add_distrib, ← Finset.sum_sub_distrib,
      Finset.sum_div, Finset.sum_mul]
    refine Finset.sum_congr rfl fun i _ => ?_
    ring
  have e2 : ∑ x : Fin B.n, ∑ i : Fin B.n, pd ρ B.M k i x * ρ ⟨"dq", i⟩ * ρ ⟨"dq", x⟩ =
      ∑ x : Fin B.n, ∑ i : Fin B.n, pd ρ B.M k x i * ρ ⟨"dq", i⟩ * ρ ⟨"dq", x⟩ := by
    rw [Finset.sum_comm]
    refine Finset.sum_congr rfl fun x _ => Finset.sum_congr rfl fun i _ => ?_
    ring
  rw [e1, e2]
  have e3 : ∑ x : Fin B.n, (∑ i : Fin B.n, pd ρ B.M k x i * ρ ⟨"dq", i⟩) * ρ ⟨"dq", x⟩ =
      ∑ x : Fin B.n, ∑ i : Fin B.n, pd ρ B.M k x i * ρ ⟨"dq", i⟩ * ρ ⟨"dq", x⟩ := by
    simp only [Finset.sum_mul]
  have e4 : ∑ x : Fin B.n, ∑ i : Fin B.n, pd ρ B.M x i k * ρ ⟨"dq", i⟩ * ρ ⟨"dq", x⟩ =
      ∑ a : Fin B.n, ∑ b : Fin B.n, ρ ⟨"dq", a⟩ * pd ρ B.M a b k * ρ ⟨"dq", b⟩ :=
    Finset.sum_congr rfl fun x _ => Finset.sum_congr rfl fun i _ => by ring
  rw [e3, e4]
  ring

end Base

end

end Thunder
