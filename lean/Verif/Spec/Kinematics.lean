import Verif.Lib.Geometry
import Mathlib.Analysis.SpecialFunctions.Trigonometric.Basic

/-!
# Specification: serial kinematic chains (modified Denavit–Hartenberg convention)

Independent of the model: only real numbers and 4×4 matrices.
-/

namespace Thunder.Spec

open Matrix

noncomputable section

/-- Kind of a joint. -/
inductive Joint
  | prismatic
  | revolute

/-- Elementary homogeneous transforms; angles are given by their cosine and sine. -/
def rotX (t : ℝ × ℝ) : Matrix (Fin 4) (Fin 4) ℝ := !![1, 0, 0, 0; 0, t.1, -t.2, 0; 0, t.2, t.1, 0; 0, 0, 0, 1]
def rotY (t : ℝ × ℝ) : Matrix (Fin 4) (Fin 4) ℝ := !![t.1, 0, t.2, 0; 0, 1, 0, 0; -t.2, 0, t.1, 0; 0, 0, 0, 1]
def rotZ (t : ℝ × ℝ) : Matrix (Fin 4) (Fin 4) ℝ := !![t.1, -t.2, 0, 0; t.2, t.1, 0, 0; 0, 0, 1, 0; 0, 0, 0, 1]
def trans (x y z : ℝ) : Matrix (Fin 4) (Fin 4) ℝ := !![1, 0, 0, x; 0, 1, 0, y; 0, 0, 1, z; 0, 0, 0, 1]

/-- Modified (Craig) Denavit–Hartenberg link transform `Trans_x(a) Rot_x(α) Trans_z(d) Rot_z(θ)`. -/
def dh (a : ℝ) (α : ℝ × ℝ) (d : ℝ) (θ : ℝ × ℝ) : Matrix (Fin 4) (Fin 4) ℝ :=
  trans a 0 0 * rotX α * trans 0 0 d * rotZ θ

/-- Frame given by a translation and yaw–pitch–roll angles. -/
def frame (p : Fin 3 → ℝ) (yaw pitch roll : ℝ × ℝ) : Matrix (Fin 4) (Fin 4) ℝ :=
  trans (p 0) (p 1) (p 2) * rotZ yaw * rotY pitch * rotX roll

/-- Cosine and sine of a real angle. -/
def cs (t : ℝ) : ℝ × ℝ := (Real.cos t, Real.sin t)

/-- Link transform of joint `i` of an ideal chain with DH rows `(a, α, d, θ)` and joint coordinate `q`. -/
def link (k : Joint) (row : Fin 4 → ℝ) (q : ℝ) : Matrix (Fin 4) (Fin 4) ℝ :=
  match k with
  | .prismatic => dh (row 0) (cs (row 1)) (row 2 + q) (cs (row 3))
  | .revolute => dh (row 0) (cs (row 1)) (row 2) (cs (row 3 + q))

/-- Ideal forward kinematics: base frame followed by the first `i` link transforms. -/
def fk (base : Matrix (Fin 4) (Fin 4) ℝ) (kind : ℕ → Joint) (row : ℕ → Fin 4 → ℝ) (q : ℕ → ℝ) :
    ℕ → Matrix (Fin 4) (Fin 4) ℝ
  | 0 => base
  | i + 1 => fk base kind row q i * link (kind i) (row i) (q i)

/-- Rotation part of a homogeneous transform. -/
def rot (T : Matrix (Fin 4) (Fin 4) ℝ) : Matrix (Fin 3) (Fin 3) ℝ := T.submatrix Fin.castSucc Fin.castSucc
/-- Translation part of a homogeneous transform. -/
def pos (T : Matrix (Fin 4) (Fin 4) ℝ) : Fin 3 → ℝ := fun i => T i.castSucc 3

/-- Rigid transform: rotation block in SO(3), last row `(0,0,0,1)`. -/
structure IsRigid (T : Matrix (Fin 4) (Fin 4) ℝ) : Prop where
  rot : IsRot (rot T)
  bottom : ∀ j : Fin 4, T 3 j = if j = 3 then 1 else 0

/-- Rounding of small constants to zero ("zero if small"). -/
def snap (x : ℝ) : ℝ := if |x| < 1e-15 then 0 else x

end

end Thunder.Spec
