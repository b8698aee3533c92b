import Verif.Model.Cli
import Verif.Lemmas.Text

/-!
# Exit status: C48

The claim (status 0 iff the library was generated) is false of the code: `main` returns 0 on its error paths and 1 on success.
-/

namespace Thunder

open Cli

/-- The four ways a run can end. -/
theorem main_cases (w : World) :
    main w = ⟨some 0, false⟩ ∨ main w = ⟨none, false⟩ ∨ main w = ⟨none, true⟩ ∨ main w = ⟨some 1, true⟩ := by
  have key : ∀ (c : Call) (g : Bool) (k : Result),
      (k = ⟨some 0, false⟩ ∨ k = ⟨none, false⟩ ∨ k = ⟨none, true⟩ ∨ k = ⟨some 1, true⟩) →
      (c.andThen g k = ⟨some 0, false⟩ ∨ c.andThen g k = ⟨none, false⟩ ∨ c.andThen g k = ⟨none, true⟩ ∨
        c.andThen g k = ⟨some 1, true⟩) := by
    intro c g k h
    cases c with
    | returns => exact h
    | throws => cases g <;> simp [Call.andThen]
  unfold main
  by_cases a1 : (!w.argsOk) = true
  · rw [if_pos a1]; simp
  rw [if_neg a1]
  by_cases a2 : (!w.hasConfig) = true
  · rw [if_pos a2]; simp
  rw [if_neg a2]
  cases Text.parseName w.configFile with
  | invalid => simp
  | throws => simp
  | ok p n =>
    refine key _ _ _ (key _ _ _ ?_)
    cases w.createDir with
    | throws => simp
    | returns =>
      refine key _ _ _ (key _ _ _ (key _ _ _ (key _ _ _ ?_)))
      by_cases h1 : (w.python && w.updateCmake == 0) = true
      · rw [if_pos h1]; simp
      rw [if_neg h1]
      by_cases h2 : (w.changeToRobot == 0) = true
      · rw [if_pos h2]; simp
      rw [if_neg h2]
      exact key _ _ _ (key _ _ _ (by simp))

/-- C48 is false of every run that ends without an exception: status 0 means that the library was *not* generated. -/
theorem C48_inverted (w : World) (s : Int) (h : (main w).status = some s) : s = 0 ↔ (main w).generated = false := by
  rcases main_cases w with e | e | e | e <;> rw [e] at h ⊢ <;> simp at h <;> subst h <;> simp

/-- C48, the part that holds: the status of a run without exception is determined by whether the library was generated
(1 if it was, 0 if not).  Full claim (false): 0 if it was, non-zero if not. -/
theorem C48_partial (w : World) (s : Int) (h : (main w).status = some s) : s = if (main w).generated then 1 else 0 := by
  rcases main_cases w with e | e | e | e <;> rw [e] at h ⊢ <;> simp at h <;> subst h <;> simp

/-- A successful invocation of `thunder gen arm.yaml`. -/
def Ex.world : World where
  argsOk := true
  hasConfig := true
  configFile := "arm.yaml".toList
  python := false
  casadi := false
  copy := false
  robotFromFile := .returns
  cwd := .returns
  createDir := .returns
  generate := .returns
  home := .returns
  copyTemplates := .returns
  copyCmake := .returns
  updateCmake := 1
  changeToRobot := 1
  savePar := .returns
  copyTo := .returns

/-- C48 is false of the code: a run that generates the library and exits with status 1, and one that does not and exits with 0. -/
theorem C48_fails : main Ex.world = ⟨some 1, true⟩ ∧ main { Ex.world with argsOk := false } = ⟨some 0, false⟩ := by decide

end Thunder
