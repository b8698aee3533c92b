import Verif.Lemmas.Text

/-!
# Text processing: C45, C47
-/

namespace Thunder

open Text

/-- C45: for a non-empty pattern `replace_all` terminates, without exception, with the text in which each leftmost non-overlapping
occurrence is replaced, and this result is the only one. -/
theorem C45_replace_all (src pat rep : List Char) (hp : pat ≠ []) :
    ∃ r, ReplaceAll src pat rep (some r) ∧ Spec.Replaced pat rep src r ∧ ∀ r', ReplaceAll src pat rep r' → r' = some r := by
  obtain ⟨r, h, hR⟩ := replRun_spec (src := src) (rep := rep) hp src.length ⟨[], 0⟩ (Nat.zero_le _) (by simp)
  simp only [List.nil_append, List.drop_zero] at h hR
  exact ⟨r, h, hR, fun r' h' => replRun_unique h' h⟩

/-- C45: the specified text is unique. -/
theorem C45_spec_unique (pat rep : List Char) {s r r' : List Char} (h : Spec.Replaced pat rep s r)
    (h' : Spec.Replaced pat rep s r') : r = r' := by
  induction h generalizing r' with
  | none hn =>
    cases h' with
    | none => rfl
    | @occ pre post => exact absurd ⟨pre, post, rfl⟩ hn
  | @occ pre post t hl _ ih =>
    generalize hs : pre ++ pat ++ post = s at h'
    cases h' with
    | none hn => exact absurd ⟨pre, post, hs⟩ hn
    | @occ pre' post' t' hl' h2 =>
      have e : pre.length = pre'.length := le_antisymm (hl _ _ hs) (hl' _ _ hs.symm)
      rw [List.append_assoc, List.append_assoc] at hs
      obtain ⟨rfl, h3⟩ := List.append_inj hs e
      obtain rfl := List.append_cancel_left h3
      rw [ih h2]

/-- C45: for an empty pattern the loop never ends: no result is ever produced and the loop body runs for ever. -/
theorem C45_empty_pattern (src rep : List Char) :
    (∀ r, ¬ ReplaceAll src [] rep r) ∧ ∃ f : ℕ → RS, f 0 = ⟨[], 0⟩ ∧ ∀ n, replStep src [] rep (f n) = some (f (n + 1)) := by
  have step : ∀ s : RS, s.lastPos ≤ src.length → replStep src [] rep s = some ⟨s.newString ++ rep, s.lastPos⟩ := by
    intro s hs
    rw [replStep, find_empty hs]; simp
  constructor
  · intro r h
    have : ∀ {s : RS} {r}, ReplRun src [] rep s r → s.lastPos ≤ src.length → False := by
      intro s r h
      induction h with
      | done e => intro hs; rw [step _ hs] at e; cases e
      | step e _ ih => intro hs; rw [step _ hs] at e; cases e; exact ih hs
    exact this h (Nat.zero_le _)
  · refine ⟨fun n => ⟨(List.replicate n rep).flatten, 0⟩, rfl, fun n => ?_⟩
    rw [step _ (Nat.zero_le _)]
    simp [List.replicate_succ']

/-- `"robot_robot"` with `robot ↦ arm`. -/
example : Spec.Replaced "robot".toList "arm".toList "robot_robot".toList "arm_arm".toList :=
  .occ (pre := []) (post := "_robot".toList) (r := "_arm".toList) (fun _ _ _ => Nat.zero_le _)
    (.occ (pre := ['_']) (post := []) (r := []) (by
      intro pre' post' h
      rcases pre' with _ | ⟨c, pre'⟩
      · simp at h
      · simp) (.none (by simp)))

/-- C47: `dir/name.yaml`. -/
theorem C47_dir (dir name : List Char) (hn : '/' ∉ name) (hl : (dir ++ '/' :: name ++ ".yaml".toList).length < 2147483648) :
    parseName (dir ++ '/' :: name ++ ".yaml".toList) = .ok (dir ++ ['/']) name := by
  have hl' : dir.length + name.length + 6 < 2147483648 := by simp at hl; omega
  have h1 : findLastOf (dir ++ '/' :: name ++ ".yaml".toList) ".yaml".toList = some (dir.length + name.length + 5) := by
    have := findLastOf_append_last (s := dir ++ '/' :: name ++ ".yam".toList) (c := 'l') (set := ".yaml".toList) (by decide)
    rw [List.append_assoc] at this
    rw [show ".yam".toList ++ ['l'] = ".yaml".toList by decide] at this
    rw [this]
    simp; omega
  have h2 : findLastOf (dir ++ '/' :: name ++ ".yaml".toList) "/".toList = some dir.length := by
    rw [show dir ++ '/' :: name ++ ".yaml".toList = (dir ++ ['/']) ++ (name ++ ".yaml".toList) by simp,
      findLastOf_append, findLastOf_append_last (by decide)]
    intro c hc
    rw [List.mem_append] at hc
    rcases hc with hc | hc
    · intro h
      simp at h
      exact hn (h ▸ hc)
    · revert c
      decide
  rw [parseName, h1, h2, toInt_some (by omega), toInt_some (by omega)]
  have e1 : toSize ((dir.length : ℤ) + 1) = dir.length + 1 := by rw [toSize]; omega
  have e2 : toSize (((dir.length + name.length + 5 : ℕ) : ℤ) - dir.length - 5) = name.length := by rw [toSize]; omega
  rw [if_pos (by omega), if_neg (by omega), e1, e2]
  have s1 : substr (dir ++ '/' :: name ++ ".yaml".toList) 0 (dir.length + 1) = some (dir ++ ['/']) := by
    simp [substr, List.take_append]
  have s2 : substr (dir ++ '/' :: name ++ ".yaml".toList) (dir.length + 1) name.length = some name := by
    rw [substr, if_pos (by simp)]
    rw [show dir ++ '/' :: name ++ ".yaml".toList = (dir ++ ['/']) ++ (name ++ ".yaml".toList) by simp,
      List.drop_left' (by simp), List.take_left' rfl]
  rw [s1, s2]

/-- C47: `name.yaml` in the current directory. -/
theorem C47_plain (name : List Char) (hn : '/' ∉ name) (hl : (name ++ ".yaml".toList).length < 2147483648) :
    parseName (name ++ ".yaml".toList) = .ok "./".toList name := by
  have hl' : name.length + 5 < 2147483648 := by simpa using hl
  have h1 : findLastOf (name ++ ".yaml".toList) ".yaml".toList = some (name.length + 4) := by
    have := findLastOf_append_last (s := name ++ ".yam".toList) (c := 'l') (set := ".yaml".toList) (by decide)
    rw [List.append_assoc] at this
    rw [show ".yam".toList ++ ['l'] = ".yaml".toList by decide] at this
    rw [this]
    simp
  have h2 : findLastOf (name ++ ".yaml".toList) "/".toList = none := by
    refine findLastOf_none fun c hc => ?_
    rw [List.mem_append] at hc
    rcases hc with hc | hc
    · intro h
      simp at h
      exact hn (h ▸ hc)
    · revert c
      decide
  rw [parseName, h1, h2, toInt_some (by omega)]
  have e2 : toSize (((name.length + 4 : ℕ) : ℤ) + 1 - 5) = name.length := by rw [toSize]; omega
  rw [if_pos (by omega), if_pos (by rfl), e2]
  have s2 : substr (name ++ ".yaml".toList) 0 name.length = some name := by
    simp [substr]
  rw [s2]

example : parseName "robots/my.robot/arm.yaml".toList = .ok "robots/my.robot/".toList "arm".toList :=
  C47_dir "robots/my.robot".toList "arm".toList (by decide) (by decide)
example : parseName "yaml.yaml".toList = .ok "./".toList "yaml".toList := C47_plain "yaml".toList (by decide) (by decide)

end Thunder
