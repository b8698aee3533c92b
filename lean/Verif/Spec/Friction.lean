import Mathlib.Data.Real.Basic
import Mathlib.Algebra.BigOperators.Group.Finset.Basic
import Mathlib.Algebra.Order.AbsoluteValue.Basic

/-!
# Friction and spring laws (specification)
-/

namespace Thunder.Spec

noncomputable section

/-- Polynomial friction of order `N`: `Σ_k c_k |v|^k v`. -/
def friction (c : ℕ → ℝ) (N : ℕ) (v : ℝ) : ℝ := ∑ k ∈ Finset.range N, c k * (|v| ^ k * v)

/-- Hardening spring of order `N`: `Σ_k c_k δ^(2k+1)`. -/
def spring (c : ℕ → ℝ) (N : ℕ) (δ : ℝ) : ℝ := ∑ k ∈ Finset.range N, c k * δ ^ (2 * k + 1)

/-- Energy stored by the spring: `Σ_k c_k δ^(2k+2)/(2k+2)`. -/
def springEnergy (c : ℕ → ℝ) (N : ℕ) (δ : ℝ) : ℝ := ∑ k ∈ Finset.range N, c k * (δ ^ (2 * k + 2) / (2 * k + 2 : ℕ))

/-- Positions along the chain of the elastic joints (types `R_SEA`, `P_SEA`), in order. -/
def elasticJoints (types : List String) : List ℕ :=
  (List.range types.length).filter fun i => types.getD i "" = "R_SEA" ∨ types.getD i "" = "P_SEA"

/-- Entry `e` of a coupling `f (link values) (motor values)` only depends on the link of the `e`-th elastic joint and on motor
`e`. -/
def OwnLink (types : List String) {n m : ℕ} (f : (Fin n → ℝ) → (Fin m → ℝ) → Fin m → ℝ) : Prop :=
  ∀ (e : Fin m) (i : Fin n), (elasticJoints types)[(e : ℕ)]? = some (i : ℕ) →
    ∀ q q' x x', q i = q' i → x e = x' e → f q x e = f q' x' e

end

end Thunder.Spec
