import Verif.Spec.System

/-!
# Bodies fixed to each other
-/

namespace Thunder.Spec

open Matrix

noncomputable section

/-- What a mass adds to the inertia tensor about a point from which it is displaced by `d` (parallel axis theorem). -/
def steiner (m : ℝ) (d : Fin 3 → ℝ) : Matrix (Fin 3) (Fin 3) ℝ := m • ((d ⬝ᵥ d) • (1 : Matrix (Fin 3) (Fin 3) ℝ) - vecMulVec d d)

/-- Each of the `n` links of `p` consists of the bodies of `p₁` and `p₂` fixed to each other. -/
structure Joined (n : ℕ) (p p₁ p₂ : ℕ → ℝ) : Prop where
  mass : ∀ i < n, mass p i = mass p₁ i + mass p₂ i
  com : ∀ i < n, Spec.mass p i • com p i = Spec.mass p₁ i • com p₁ i + Spec.mass p₂ i • com p₂ i
  inertia : ∀ i < n, inertia p i = inertia p₁ i + steiner (Spec.mass p₁ i) (Spec.com p₁ i - Spec.com p i) +
    (inertia p₂ i + steiner (Spec.mass p₂ i) (Spec.com p₂ i - Spec.com p i))

end

end Thunder.Spec
