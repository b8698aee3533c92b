import Verif.Spec.System

/-!
# Rounded cosines and sines

The angles that are numbers in the file are replaced by the cosine and the sine computed when the library is generated.  `exact c` is the mechanism in
which these angles are taken exactly.
-/

open Matrix

namespace Thunder.Spec

noncomputable section

/-- Length of a vector. -/
def len (v : Fin 3 → ℝ) : ℝ := Real.sqrt (v ⬝ᵥ v)

/-- Relative error of a product of `m` factors with relative error `u`. -/
def gap (u : ℝ) (m : ℕ) : ℝ := (1 + u) ^ m - 1

/-- The mechanism of the file with all angles taken exactly. -/
def exact (c : Conf) : Conf := { c with fdh := fun _ => 1, fw2l := fun _ => 1, fee := fun _ => 1 }

/-- The cosine and the sine computed for the numeric angles of the file have an error of at most `ε`. -/
def CloseNumeric [Fl] (c : Conf) (ε : ℝ) : Prop := ∀ a, NumericAngle c a → |Fl.cosF a - Real.cos a| ≤ ε ∧ |Fl.sinF a - Real.sin a| ≤ ε

/-- The error of a rotation, when numbers below `1e-15` are replaced by zero. -/
def turn (ε : ℝ) : ℝ := 2 * (ε + 1e-15)

/-- Length of the offsets `a` and `d` of joint `i`, and of all joints before link `i`. -/
def offset (c : Conf) (q : Fin c.n → ℝ) (i : ℕ) : ℝ :=
  |c.dh (4 * i)| + |c.dh (4 * i + 2) + if h : i < c.n then (match kindOf c i with | .prismatic => q ⟨i, h⟩ | .revolute => 0) else 0|
def reach (c : Conf) (q : Fin c.n → ℝ) (i : ℕ) : ℝ := ∑ k ∈ Finset.range i, offset c q k

/-- One plus the length of the chain up to the centre of mass of link `i`: it bounds the velocity of the centre of mass per unit of joint velocity. -/
def arm (c : Conf) (q : Fin c.n → ℝ) (i : ℕ) : ℝ := 1 + (reach c q (i + 1) + len (com c.dyn i))

/-- Sum of the absolute values of the entries of a matrix. -/
def entries (A : Matrix (Fin 3) (Fin 3) ℝ) : ℝ := ∑ a, ∑ b, |A a b|

/-- Size of the mass matrix. -/
def massSize (c : Conf) (q : Fin c.n → ℝ) : ℝ := ∑ i ∈ Finset.range c.n, (|mass c.dyn i| * arm c q i ^ 2 + entries (inertia c.dyn i))
/-- Size of its derivatives. -/
def rateSize (c : Conf) (q : Fin c.n → ℝ) : ℝ := ∑ i ∈ Finset.range c.n, (|mass c.dyn i| * (6 * arm c q i ^ 2) + 4 * entries (inertia c.dyn i))
/-- Size of the inertia that link `i` opposes to its own joint. -/
def ownSize (c : Conf) (i : ℕ) : ℝ := |mass c.dyn i| * (1 + len (com c.dyn i)) ^ 2 + entries (inertia c.dyn i)
/-- Size of the gravity terms. -/
def gravitySize (c : Conf) (q : Fin c.n → ℝ) : ℝ := ∑ i ∈ Finset.range c.n, |mass c.dyn i| * (arm c q i * len fun k => c.g k)

end

end Thunder.Spec
