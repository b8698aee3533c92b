import Verif.Spec.File
import Verif.Spec.Config
import Verif.Spec.Body

/-!
# Specification: bodies in URDF frames and in Denavit-Hartenberg frames
-/

namespace Thunder.Spec

open Matrix Real

noncomputable section

/-- The entry `e` gives, under the key `name`, a body of mass `m`, with centre of mass `c` and inertia tensor `I` at the centre of mass, the tensor being
expressed in axes turned by `ang` (roll, pitch, yaw).  `scan` gives the numbers written in a text. -/
def BodyEntry (scan : String → List Num) (e : Option String × Yaml) (name : String) (m : ℝ) (c ang : Fin 3 → ℝ) (I : Fin 6 → ℝ) : Prop :=
  e.1 = some name ∧ Number e.2 "mass" (some m) ∧
  (∃ z, Child e.2 "inertia" z ∧ Number z "xx" (some (I 0)) ∧ Number z "xy" (some (I 1)) ∧ Number z "xz" (some (I 2)) ∧
    Number z "yy" (some (I 3)) ∧ Number z "yz" (some (I 4)) ∧ Number z "zz" (some (I 5))) ∧
  ∃ z a b, Child e.2 "origin" z ∧ Child z "xyz" (.scalar a) ∧ scan a.text = [some (c 0), some (c 1), some (c 2)] ∧
    Child z "rpy" (.scalar b) ∧ scan b.text = [some (ang 0), some (ang 1), some (ang 2)]

/-- The entry `e` gives a body as in `BodyEntry`, but no angles. -/
def NoAngles (e : Option String × Yaml) (name : String) (m : ℝ) (I : Fin 6 → ℝ) : Prop :=
  e.1 = some name ∧ Number e.2 "mass" (some m) ∧
  (∃ z, Child e.2 "inertia" z ∧ Number z "xx" (some (I 0)) ∧ Number z "xy" (some (I 1)) ∧ Number z "xz" (some (I 2)) ∧
    Number z "yy" (some (I 3)) ∧ Number z "yz" (some (I 4)) ∧ Number z "zz" (some (I 5))) ∧
  ∃ z a, Child e.2 "origin" z ∧ Child z "xyz" (.scalar a) ∧ NoChild z "rpy"

/-- The tree lists `n` links, in this order, with the given inertial entries directly below the name. -/
def FlatList (y : Yaml) (n : ℕ) (name : ℕ → String) (com : String) (P : ℕ → ℕ → Num) : Prop :=
  ∃ l, y = .map l ∧ l.length = n ∧ ∀ i < n, ∃ nd, l[i]? = some (some (name i), nd) ∧ Inertial nd com (P i)

/-- Columns `a` and `alpha` of the table in the comment of `main_YAML.cpp`, lines 6-12. -/
def dhA : ℕ → ℝ
  | 2 => 0.0825
  | 3 => -0.0825
  | 5 => 0.088
  | _ => 0
def dhAlpha : ℕ → ℝ
  | 0 => -(π / 2)
  | 1 => π / 2
  | 2 => π / 2
  | 3 => -(π / 2)
  | 4 => π / 2
  | 5 => π / 2
  | _ => 0
/-- The part of the joint distance `d` that is not contained in the URDF frame: only the flange, last row. -/
def dhD : ℕ → ℝ
  | 6 => 0.107
  | _ => 0

/-- A point given in the Denavit-Hartenberg frame of link `i`, expressed in its URDF frame. -/
def dhPoint (i : ℕ) (p : Fin 3 → ℝ) : Fin 3 → ℝ := ![dhA i, 0, dhD i] + axX (dhAlpha i) *ᵥ p

/-- A tensor given in the axes of the Denavit-Hartenberg frame, expressed in the axes of the URDF frame. -/
def dhTensor (i : ℕ) (J : Matrix (Fin 3) (Fin 3) ℝ) : Matrix (Fin 3) (Fin 3) ℝ := axX (dhAlpha i) * J * (axX (dhAlpha i))ᵀ

/-- Ten numbers of a body: mass, centre of mass, upper triangle. -/
def tenNumbers (m : ℝ) (c : Fin 3 → ℝ) (J : Matrix (Fin 3) (Fin 3) ℝ) (k : ℕ) : ℝ :=
  [m, c 0, c 1, c 2, J 0 0, J 0 1, J 0 2, J 1 1, J 1 2, J 2 2].getD k 0

end

end Thunder.Spec
