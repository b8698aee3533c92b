import Verif.Model.Members
import Verif.Lemmas.Book
import Verif.Lemmas.User

/-!
# The members of a robot that no call changes
-/

open scoped Classical

namespace Thunder.Robot

noncomputable section

open Spec Act

/-- Name, sizes and types. -/
def frozen (r : Robot) : (String × ℕ × ℕ × Bool × List String × List ℤ) × ℤ × ℤ × ℤ × ℤ :=
  ((r.name, r.n, r.ne, r.elastic, r.types, r.isEla), r.kI, r.dI, r.dlI, r.dmI)

variable {v : (String × ℕ × ℕ × Bool × List String × List ℤ) × ℤ × ℤ × ℤ × ℤ}

theorem keeps_frozen_of_eq {f : Robot → Robot} (hf : ∀ r, (f r).frozen = r.frozen) : Keeps (fun r => r.frozen = v) (Act.modify f) :=
  Keeps.modify fun r h => (hf r).trans h

theorem argInv_frozen : ArgInv (fun r => r.frozen = v) fun _ _ _ => True where
  touch _ _ h := h
  set _ _ _ h _ := h
  same _ _ _ _ _ := trivial

theorem keeps_frozen_collect (a : List String) : Keeps (fun r => r.frozen = v) (collect a) := by
  induction a with
  | nil => exact Keeps.pure _
  | cons b l ih =>
    exact (keeps_frozen_of_eq (by intro r; rfl)).bind fun _ => Keeps.read fun r => (Keeps.ofIdx _).bind fun _ => Keeps.bind ih fun _ => Keeps.pure _

theorem closed_frozen : Closed fun r => r.frozen = v where
  add f e a d o := Keeps.read fun r => Keeps.ite (Keeps.pure _) <| (keeps_frozen_of_eq (by intro r; rfl)).bind fun _ => (keeps_frozen_collect a).bind fun _ =>
    (Keeps.ofExc _).bind fun _ => (keeps_frozen_of_eq (by intro r; rfl)).bind fun _ => Keeps.pure _
  touch s := keeps_frozen_of_eq (by intro r; rfl)

theorem keeps_frozen_user (us : List UserFun) : Keeps (fun r => r.frozen = v) (computeUser us) := by
  induction us with
  | nil => exact Keeps.pure _
  | cons u us ih => exact Keeps.read fun r => (keeps_register closed_frozen _).bind fun _ => ih

theorem keeps_frozen_initSymb : Keeps (fun r => r.frozen = v) Robot.initSymb := by
  refine Keeps.read fun r => Keeps.foldl (g := fun p : String × List ℤ => subsSymb p.1) (fun p => ?_) _ _ (Keeps.pure _)
  refine Keeps.read fun r => (keeps_frozen_of_eq (by intro r; rfl)).bind fun _ => ?_
  have : ∀ (l : List ℤ) (i : ℕ), Keeps (fun r => r.frozen = v) (subsLoop p.1 i l) := by
    intro l
    induction l with
    | nil => intro i; exact Keeps.pure _
    | cons f l ih =>
      intro i
      unfold subsLoop
      exact Keeps.ite (Keeps.read fun r => (Keeps.ofExc _).bind fun _ => (Keeps.ofIdx _).bind fun _ => (Keeps.ofExc _).bind fun A =>
        (keeps_frozen_of_eq (by intro r; rfl)).bind fun _ => ih _) (ih _)
  exact this _ _

theorem keeps_frozen_updateSymb : Keeps (fun r => r.frozen = v) Robot.updateSymb := by
  refine Keeps.read fun r => Keeps.foldl (g := fun p : String × List ℤ => compact p.1 p.2) (fun p => ?_) _ _ (Keeps.pure _)
  exact Keeps.read fun r => (Keeps.ofExc _).bind fun m => (Keeps.ofExc _).bind fun v => keeps_frozen_of_eq (by intro r; rfl)

/-- Every call keeps them. -/
theorem keeps_frozen (c : RCall) : Keeps (fun r => r.frozen = v) c.run := by
  refine keeps_arg_call argInv_frozen (fun _ _ _ _ => trivial) c (fun name _ => ?_) (fun k w _ r h => h)
    (fun f e a d o _ => closed_frozen.add f e a d o) (fun _ => keeps_frozen_initSymb) (fun _ => keeps_frozen_updateSymb)
  refine Keeps.read fun r => ?_
  cases r.funArgs.find name with
  | none => exact Keeps.pure _
  | some fa =>
    refine (Keeps.modify fun r hr => ?_).bind fun _ => (Keeps.ofIdx _).bind fun _ => (Keeps.ofExc _).bind fun _ => (Keeps.ofIdx _).bind
      fun _ => Keeps.pure _
    exact keeps_touches argInv_frozen fa _ hr

/-- The robot after `robot_from_file`, with any functions of the user and also without computing the functions. -/
theorem fromFileWith_frozen [Fl] {c : Conf} {y : Yaml} (h : Describes y c) {us : List UserFun} {name : String} {b : Bool} {r : Robot}
    (e : robotFromFileWith us name (some y) b = .ok r) : r.frozen = { robotOf c with name := name }.frozen := by
  have hcon : constructFile (some y) = .ok (robotOf c) := construct_ok h
  unfold robotFromFileWith at e
  rw [hcon] at e
  dsimp only at e
  have hf : Res.Post (fun r => r.frozen = { robotOf c with name := name }.frozen) (fillRobotWith us name (some y) b (robotOf c)) := by
    unfold fillRobotWith
    rw [bind_ok (modify_run _ _)]
    refine ((keeps_loadConfPar argInv_frozen (fun _ _ _ _ => trivial) _ _).bind fun _ => Keeps.ite ?_ (Keeps.pure _)) _ rfl
    exact keeps_frozen_initSymb.bind fun _ => (keeps_kin closed_frozen).bind fun _ => (keeps_dyn closed_frozen).bind fun _ => (keeps_regs closed_frozen).bind fun _ =>
      (keeps_frozen_user us).bind fun _ => keeps_frozen_updateSymb
  revert hf e
  cases fillRobotWith us name (some y) b (robotOf c) with
  | ok u r' =>
    intro e hf
    have : r' = r := by simpa using e
    exact this ▸ hf
  | yaml r' => intro e; cases e
  | exc r' => intro e; cases e
  | ub => intro e; cases e

end

end Thunder.Robot
