import Verif.Lemmas.User

/-!
# The sizes of the robot after `robot_from_file`
-/

open scoped Classical

namespace Thunder.Robot

noncomputable section

open Spec Act

/-- The members with the sizes. -/
def dims (r : Robot) : ℕ × ℕ × Bool × ℤ × ℤ × ℤ × ℤ := (r.n, r.ne, r.elastic, r.kI, r.dI, r.dlI, r.dmI)

variable {v : ℕ × ℕ × Bool × ℤ × ℤ × ℤ × ℤ}

theorem keeps_dims_of_eq {f : Robot → Robot} (hf : ∀ r, (f r).dims = r.dims) : Keeps (fun r => r.dims = v) (Act.modify f) :=
  Keeps.modify fun r h => (hf r).trans h

theorem keeps_dims_collect (a : List String) : Keeps (fun r => r.dims = v) (collect a) := by
  induction a with
  | nil => exact Keeps.pure _
  | cons b l ih =>
    exact (keeps_dims_of_eq (by intro r; rfl)).bind fun _ => Keeps.read fun r => (Keeps.ofIdx _).bind fun _ => Keeps.bind ih fun _ => Keeps.pure _

theorem closed_dims : Closed fun r => r.dims = v where
  add f e a d o := Keeps.read fun r => Keeps.ite (Keeps.pure _) <| (keeps_dims_of_eq (by intro r; rfl)).bind fun _ => (keeps_dims_collect a).bind fun _ =>
    (Keeps.ofExc _).bind fun _ => (keeps_dims_of_eq (by intro r; rfl)).bind fun _ => Keeps.pure _
  touch s := keeps_dims_of_eq (by intro r; rfl)

theorem keeps_dims_user (us : List UserFun) : Keeps (fun r => r.dims = v) (computeUser us) := by
  induction us with
  | nil => exact Keeps.pure _
  | cons u us ih => exact Keeps.read fun r => (keeps_register closed_dims _).bind fun _ => ih

theorem keeps_dims_updateSymb : Keeps (fun r => r.dims = v) Robot.updateSymb := by
  refine Keeps.read fun r => Keeps.foldl (g := fun p : String × List ℤ => compact p.1 p.2) (fun p => ?_) _ _ (Keeps.pure _)
  exact Keeps.read fun r => (Keeps.ofExc _).bind fun m => (Keeps.ofExc _).bind fun v => keeps_dims_of_eq (by intro r; rfl)

variable [Fl]

/-- The sizes of the final robot are those of the configuration, whatever the user adds. -/
theorem fromFileWith_dims {c : Conf} {y : Yaml} (h : Describes y c) (hn : 0 < c.n) (ht : Typed c) {us : List UserFun} {name : String} {r : Robot}
    (e : robotFromFileWith us name (some y) true = .ok r) : r.dims = (c.n, c.ne, c.elastic, (c.kO : ℤ), (c.dO : ℤ), (c.dlO : ℤ), (c.dmO : ℤ)) := by
  obtain ⟨r₃, s₃, -, ef⟩ := fromFileWith_eq h hn ht us (robotName_of_with h e)
  rw [ef] at e
  have h3 : r₃.dims = (c.n, c.ne, c.elastic, (c.kO : ℤ), (c.dO : ℤ), (c.dlO : ℤ), (c.dmO : ℤ)) := by
    unfold dims
    rw [s₃.n, s₃.ne, s₃.elastic, s₃.kI, s₃.dI, s₃.dlI, s₃.dmI]
  have bk := ((keeps_dims_user (v := (c.n, c.ne, c.elastic, (c.kO : ℤ), (c.dO : ℤ), (c.dlO : ℤ), (c.dmO : ℤ))) us).bind fun _ => keeps_dims_updateSymb) _ h3
  cases hc : (computeUser us >>= fun _ => updateSymb) r₃ with
  | yaml r₂ => rw [hc] at e; cases e
  | exc r₂ => rw [hc] at e; cases e
  | ub => rw [hc] at e; cases e
  | ok z r₄ =>
    rw [hc] at e bk
    obtain rfl : r₄ = r := by simpa using e
    exact bk

end

end Thunder.Robot
