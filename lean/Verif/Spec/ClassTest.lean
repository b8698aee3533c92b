import Verif.Spec.TestMain
import Verif.Spec.AsRead
import Verif.Spec.Inertia

/-!
# What `thunder_robot_test` should print
-/

namespace Thunder.Spec

open Matrix Robot

noncomputable section

/-- The headings, in order. -/
def classHeadings : List String :=
  ["par_DYN", "par_REG", "par_Dl", "Kin", "Jac", "M", "C", "G", "Yr", "tau_cmd_dyn", "tau_cmd_reg", "diff tau_cmd", "world2L0", "par_Ln2EE"]

/-- A column of parameters as it is printed. -/
def printCol (v : List Num) : Mat := ⟨v.length, 1, v⟩

/-- What is printed for the mechanism `c`, with all joint coordinates one and at rest, when the parameters shown are `p`: the torque computed from the
matrices is the gravity torque of `c`, and the torque computed with the regressor that of `c` with the parameters `p`. -/
structure ClassPrints [Fl] (c : Conf) (p : ℕ → ℝ) (out : List (String × Mat)) : Prop where
  heads : out.map Prod.fst = classHeadings
  dyn : shows out "par_DYN" (printRow (nums (10 * c.n) p))
  reg : shows out "par_REG" (printRow (nums (10 * c.n) (reg p)))
  kin : Returns (shows out) "Kin" (toolFrame c fun _ => 1)
  jac : Returns (shows out) "Jac" (jacobianOf (toolFrame c) fun _ => 1)
  M : Returns (shows out) "M" (massOf c fun _ => 1)
  C : Returns (shows out) "C" (0 : Matrix (Fin c.n) (Fin c.n) ℝ)
  G : ReturnsVec (shows out) "G" (gravityOf c fun _ => 1)
  Yr : ∃ Y : Matrix (Fin c.n) (Fin (10 * c.n)) ℝ, Returns (shows out) "Yr" Y ∧ ∀ p, Y *ᵥ (fun k => Spec.reg p k) = gravityOf (withDyn c p) fun _ => 1
  tauDyn : ReturnsVec (shows out) "tau_cmd_dyn" (gravityOf c fun _ => 1)
  tauReg : ReturnsVec (shows out) "tau_cmd_reg" (gravityOf (withDyn c p) fun _ => 1)
  diff : ReturnsVec (shows out) "diff tau_cmd" fun i => gravityOf c (fun _ => 1) i - gravityOf (withDyn c p) (fun _ => 1) i

end

end Thunder.Spec
