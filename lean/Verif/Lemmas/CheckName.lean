import Verif.Model.Robot
import Verif.Spec.Names

/-!
# Names accepted by CasADi
-/

namespace Thunder

open Spec

theorem checkTail_iff : ∀ {l : List Char}, checkTail l = true ↔ (∀ x ∈ l, x.isAlphanum = true ∨ x = '_') ∧ ¬ ['_', '_'] <:+: l
  | [] => by simp [checkTail]
  | x :: l => by
    have hi : ['_', '_'] <:+: x :: l ↔ (x = '_' ∧ l.head? = some '_') ∨ ['_', '_'] <:+: l := by
      rw [List.infix_cons_iff]
      refine or_congr ⟨fun h => ?_, fun h => ?_⟩ Iff.rfl
      · obtain ⟨t, e⟩ := h
        simp only [List.cons_append, List.nil_append, List.cons.injEq] at e
        rw [← e.2]
        exact ⟨e.1.symm, rfl⟩
      · obtain ⟨rfl, h⟩ := h
        cases l with
        | nil => cases h
        | cons z l =>
          obtain rfl : z = '_' := by simpa using h
          exact ⟨l, rfl⟩
    rw [checkTail, Bool.and_eq_true, checkTail_iff, hi]
    by_cases hx : x = '_'
    · subst hx
      simp only [if_true, decide_eq_true_eq, List.mem_cons, forall_eq_or_imp, or_true, true_and]
      tauto
    · simp only [hx, if_false, List.mem_cons, forall_eq_or_imp, or_false, false_and, false_or]
      tauto

theorem infix_append {u : Char} {a b : List Char} : [u, u] <:+: a ++ b ↔ [u, u] <:+: a ∨ (a.getLast? = some u ∧ b.head? = some u) ∨ [u, u] <:+: b := by
  induction a with
  | nil => simp
  | cons x a ih =>
    rw [List.cons_append, List.infix_cons_iff, List.infix_cons_iff, ih]
    cases a with
    | nil =>
      cases b with
      | nil => simp
      | cons z b =>
        have h1 : ¬ [u, u] <:+: [x] := fun h => by simpa using h.length_le
        have h2 : ¬ [u, u] <:+: ([] : List Char) := fun h => by simpa using h.length_le
        have h3 : ¬ [u, u] <+: [x] := fun h => by simpa using h.length_le
        have h4 : [u, u] <+: x :: z :: b ↔ x = u ∧ z = u := by
          rw [List.cons_prefix_cons, List.cons_prefix_cons]
          simp only [List.nil_prefix, and_true]
          exact ⟨fun h => ⟨h.1.symm, h.2.symm⟩, fun h => ⟨h.1.symm, h.2.symm⟩⟩
        simp only [List.nil_append, List.getLast?_nil, List.getLast?_singleton, List.head?_cons, Option.some.injEq, h2, h3, h4, false_or, reduceCtorEq,
          false_and]
    | cons z a =>
      simp only [List.cons_append, List.cons_prefix_cons, List.nil_prefix, and_true, List.getLast?_cons_cons]
      tauto

theorem checkName_iff {s f : String} : checkName (cName s f) = true ↔ (∃ x l, s.toList = x :: l ∧ x.isAlpha = true) ∧
    checkTail (s.toList ++ '_' :: (f.toList ++ "_fun".toList)) = true := by
  have hl : (cName s f).toList = s.toList ++ '_' :: (f.toList ++ "_fun".toList) := by
    unfold cName
    simp only [String.toList_append, List.append_assoc]
    rfl
  have hk : (["null", "jac", "hess"].contains (cName s f)) = false := by
    rw [← Bool.not_eq_true, List.contains_iff_mem]
    intro hm
    have : ∀ t ∈ ["null", "jac", "hess"], '_' ∉ t.toList := by decide
    refine this _ hm ?_
    rw [hl]
    simp
  unfold checkName
  rw [hk, hl]
  cases hs : s.toList with
  | nil =>
    simp [show ('_').isAlpha = false by decide]
  | cons x l =>
    rw [List.cons_append]
    dsimp only
    rw [Bool.not_false, Bool.and_true, Bool.and_eq_true]
    constructor
    · rintro ⟨h1, h2⟩
      refine ⟨⟨x, l, rfl, h1⟩, ?_⟩
      rw [checkTail, h2, Bool.and_true, if_neg (by rintro rfl; revert h1; decide)]
      unfold Char.isAlphanum
      rw [h1]; rfl
    · rintro ⟨⟨x', l', e, h1⟩, h2⟩
      obtain ⟨rfl, rfl⟩ := List.cons.inj e
      rw [checkTail, Bool.and_eq_true] at h2
      exact ⟨h1, h2.2⟩

theorem robotName_of_check {s f : String} (h : checkName (cName s f) = true) : RobotName s := by
  obtain ⟨h1, h2⟩ := checkName_iff.1 h
  obtain ⟨h3, h4⟩ := checkTail_iff.1 h2
  rw [infix_append] at h4
  push Not at h4
  refine ⟨h1, fun x hx => h3 x (List.mem_append_left _ hx), h4.1, fun hl => h4.2.1 hl rfl⟩

theorem check_of_good {s f : String} (h : RobotName s) (hf : FunName f) : checkName (cName s f) = true := by
  refine checkName_iff.2 ⟨h.first, checkTail_iff.2 ⟨fun x hx => ?_, fun hi => ?_⟩⟩
  · rcases List.mem_append.1 hx with hx | hx
    · exact h.chars x hx
    · rcases List.mem_cons.1 hx with rfl | hx
      · exact .inr rfl
      · rcases List.mem_append.1 hx with hx | hx
        · exact hf.chars x hx
        · have : ∀ x ∈ "_fun".toList, x.isAlphanum = true ∨ x = '_' := by decide
          exact this x hx
  · rcases infix_append.1 hi with hi | ⟨hi, -⟩ | hi
    · exact h.single hi
    · exact h.last hi
    · have e : '_' :: (f.toList ++ "_fun".toList) = ['_'] ++ (f.toList ++ "_fun".toList) := rfl
      rw [e] at hi
      rcases infix_append.1 hi with hi | ⟨-, hi⟩ | hi
      · exact absurd hi (by decide)
      · rw [List.head?_append_of_ne_nil _ hf.ne] at hi
        exact hf.first hi
      · rcases infix_append.1 hi with hi | ⟨hi, -⟩ | hi
        · exact hf.single hi
        · exact hf.last hi
        · exact absurd hi (by decide)

/-- The characters of a function of a robot. -/
theorem chars_of_check {s f : String} (h : checkName (cName s f) = true) : ∀ x ∈ f.toList, x.isAlphanum = true ∨ x = '_' := by
  obtain ⟨-, h2⟩ := checkName_iff.1 h
  obtain ⟨h3, -⟩ := checkTail_iff.1 h2
  exact fun x hx => h3 x (List.mem_append_right _ (List.mem_cons_of_mem _ (List.mem_append_left _ hx)))

end Thunder
