import Verif.Spec.ClassTest
import Verif.Model.Chrono

/-!
# What the programs that measure times should print
-/

namespace Thunder.Spec

open Matrix Robot

noncomputable section

/-- All variables of motion one, the rest zero. -/
def onesState (c : Conf) : State c := ⟨fun _ => 1, fun _ => 1, 0, 0, fun _ => 1, fun _ => 1, 0, 0, 0, 0⟩

/-- The durations of `n` calls when the clock is read before and after each, beginning with reading `t`. -/
def durations (clk : ℕ → ℤ) (t n : ℕ) : List ℤ := (List.range n).map fun k => clk (t + 2 * k + 1) - clk (t + 2 * k)

/-- `d` is the shortest of the durations. -/
def Shortest (l : List ℤ) (d : ℤ) : Prop := d ∈ l ∧ ∀ x ∈ l, d ≤ x

/-- The headings, in order. -/
def chronoHeadings : List String := ["time Kin", "time Jac", "time M", "time C", "time C_std", "time G", "time Yr"]

/-- `m` is the value computed by call number `k` under the heading `h`. -/
def computed (l : List Chrono.Line) (k : ℕ) (h : String) (m : Mat) : Prop := ∃ x ∈ l, x.heading = h ∧ x.values[k]? = some m

/-- Every one of the `reps` calls computes the matrix of the mechanism `c` when all variables of motion are one. -/
structure Computes [Fl] (c : Conf) (reps : ℕ) (l : List Chrono.Line) : Prop where
  kin : ∀ k < reps, Returns (computed l k) "time Kin" (toolFrame c fun _ => 1)
  jac : ∀ k < reps, Returns (computed l k) "time Jac" (jacobianOf (toolFrame c) fun _ => 1)
  M : ∀ k < reps, Returns (computed l k) "time M" (massOf c fun _ => 1)
  C : ∀ k < reps, Returns (computed l k) "time C" (coriolisOf c (fun _ => 1) fun _ => 1)
  Cstd : ∀ k < reps, Returns (computed l k) "time C_std" (coriolisOf c (fun _ => 1) fun _ => 1)
  G : ∀ k < reps, ReturnsVec (computed l k) "time G" (gravityOf c fun _ => 1)
  Yr : ∀ k < reps, ∃ Y : Matrix (Fin c.n) (Fin (10 * c.n)) ℝ, Returns (computed l k) "time Yr" Y ∧ ∀ p, Y *ᵥ (fun k => reg p k) =
    massOf (withDyn c p) (fun _ => 1) *ᵥ (fun _ => 1) + coriolisOf (withDyn c p) (fun _ => 1) (fun _ => 1) *ᵥ (fun _ => 1) + gravityOf (withDyn c p) fun _ => 1

end

end Thunder.Spec
