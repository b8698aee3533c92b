import Verif.Spec.Kinematics
import Mathlib.Analysis.Calculus.Deriv.Basic

/-!
# Specification: rigid links

Independent of the model.  `p k` is entry `k` of the inertial parameter vector, ten per link:
`m, cx, cy, cz, Ixx, Ixy, Ixz, Iyy, Iyz, Izz` (centre of mass and inertia tensor at the centre of mass, both in the link frame).
-/

namespace Thunder.Spec

open Matrix

noncomputable section

/-- Mass of link `i`. -/
def mass (p : ℕ → ℝ) (i : ℕ) : ℝ := p (10 * i)
/-- Centre of mass of link `i`, link frame. -/
def com (p : ℕ → ℝ) (i : ℕ) : Fin 3 → ℝ := ![p (10 * i + 1), p (10 * i + 2), p (10 * i + 3)]
/-- Inertia tensor of link `i` at its centre of mass, link frame. -/
def inertia (p : ℕ → ℝ) (i : ℕ) : Matrix (Fin 3) (Fin 3) ℝ :=
  !![p (10 * i + 4), p (10 * i + 5), p (10 * i + 6);
     p (10 * i + 5), p (10 * i + 7), p (10 * i + 8);
     p (10 * i + 6), p (10 * i + 8), p (10 * i + 9)]

/-- World position of the point `c` of a body whose frame is `T`. -/
def point (T : Matrix (Fin 4) (Fin 4) ℝ) (c : Fin 3 → ℝ) : Fin 3 → ℝ := pos T + rot T *ᵥ c

/-- Non-negative masses and positive semidefinite inertia tensors. -/
def Physical (p : ℕ → ℝ) (n : ℕ) : Prop := ∀ i < n, 0 ≤ mass p i ∧ ∀ x : Fin 3 → ℝ, 0 ≤ x ⬝ᵥ inertia p i *ᵥ x

/-- `v` and `ω` are the velocity of the centre of mass `c` and the angular velocity (world axes) of a body moving with the
frame `T(s)`, at time `t`: `d/ds (point T c) = v` and `dR/ds = hat ω · R`. -/
structure IsTwist (T : ℝ → Matrix (Fin 4) (Fin 4) ℝ) (c : Fin 3 → ℝ) (t : ℝ) (v ω : Fin 3 → ℝ) : Prop where
  lin : ∀ a, HasDerivAt (fun s => point (T s) c a) (v a) t
  ang : ∀ a b, HasDerivAt (fun s => rot (T s) a b) ((hat ω * rot (T t)) a b) t

/-- Kinetic energy of one body: `½ m |v|² + ½ ωᵀ (R I Rᵀ) ω`. -/
def kinetic (m : ℝ) (I R : Matrix (Fin 3) (Fin 3) ℝ) (v ω : Fin 3 → ℝ) : ℝ :=
  1 / 2 * m * (v ⬝ᵥ v) + 1 / 2 * (ω ⬝ᵥ (R * I * Rᵀ) *ᵥ ω)

/-- Vector of a skew matrix: `vee (hat ω) = ω`. -/
def vee (A : Matrix (Fin 3) (Fin 3) ℝ) : Fin 3 → ℝ := ![A 2 1, A 0 2, A 1 0]

/-- Kinetic energy of `n` links with frames `T i`, at configuration `q` and joint velocity `v`: each body's centre-of-mass velocity
and angular velocity `vee (Ṙ Rᵀ)` are the derivatives along the straight motion `q + s v`. -/
def kineticEnergy (p : ℕ → ℝ) (n : ℕ) {k : ℕ} (T : ℕ → (Fin k → ℝ) → Matrix (Fin 4) (Fin 4) ℝ) (q v : Fin k → ℝ) : ℝ :=
  ∑ i ∈ Finset.range n, kinetic (mass p i) (inertia p i) (rot (T i q))
    (fun a => deriv (fun s : ℝ => point (T i (q + s • v)) (com p i) a) 0)
    (vee (Matrix.of (fun a b => deriv (fun s : ℝ => rot (T i (q + s • v)) a b) 0) * (rot (T i q))ᵀ))

/-- Gravitational potential energy of the links: `-Σ m_i g·p_ci`, `T i` being the frame of link `i`. -/
def potential (p : ℕ → ℝ) (g : Fin 3 → ℝ) (n : ℕ) (T : ℕ → Matrix (Fin 4) (Fin 4) ℝ) : ℝ :=
  -∑ i ∈ Finset.range n, mass p i * (g ⬝ᵥ point (T i) (com p i))

/-- Lagrangian of the links: kinetic minus potential energy, both computed from the link frames. -/
def lagrangian (p : ℕ → ℝ) (g : Fin 3 → ℝ) (n : ℕ) {k : ℕ} (T : ℕ → (Fin k → ℝ) → Matrix (Fin 4) (Fin 4) ℝ)
    (q v : Fin k → ℝ) : ℝ := kineticEnergy p n T q v - potential p g n fun i => T i q

end

end Thunder.Spec
