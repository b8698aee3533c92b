import Verif.Model.Text
import Verif.Spec.Text
import Mathlib.Tactic.NormNum

/-!
# Text processing: helper lemmas
-/

namespace Thunder.Text

open Spec

theorem find_some {s pat : List Char} {pos f : ℕ} (h : find s pat pos = some f) :
    pos ≤ f ∧ f ≤ s.length ∧ pat <+: s.drop f ∧ ∀ p, pos ≤ p → p < f → ¬ pat <+: s.drop p := by
  rw [find, List.find?_eq_some_iff_getElem] at h
  obtain ⟨h1, i, hi, e, h2⟩ := h
  rw [List.length_range'] at hi
  simp only [List.getElem_range', decide_eq_true_eq, Nat.one_mul, Bool.not_eq_true', decide_eq_false_iff_not] at *
  subst e
  refine ⟨by omega, by omega, h1, ?_⟩
  intro p hp hp'
  have := h2 (p - pos) (by omega)
  rwa [show pos + (p - pos) = p by omega] at this

theorem find_none {s pat : List Char} {pos : ℕ} (h : find s pat pos = none) (p : ℕ) (h1 : pos ≤ p) (h2 : p ≤ s.length) :
    ¬ pat <+: s.drop p := by
  rw [find, List.find?_eq_none] at h
  have := h p (by rw [List.mem_range'_1]; omega)
  simpa using this

theorem prefix_drop_iff {s pat : List Char} {p : ℕ} (hp : p ≤ s.length) :
    pat <+: s.drop p ↔ ∃ pre post, s = pre ++ pat ++ post ∧ pre.length = p := by
  constructor
  · rintro ⟨t, ht⟩
    exact ⟨s.take p, t, by rw [List.append_assoc, ht, List.take_append_drop], by simp [hp]⟩
  · rintro ⟨pre, post, rfl, rfl⟩
    refine ⟨post, ?_⟩
    simp [List.append_assoc]

/-- The loop from any position copies what came before and replaces in the rest. -/
theorem replRun_spec {src pat rep : List Char} (hp : pat ≠ []) :
    ∀ (k : ℕ) (s : RS), s.lastPos ≤ src.length → src.length - s.lastPos ≤ k →
      ∃ r, ReplRun src pat rep s (some (s.newString ++ r)) ∧ Replaced pat rep (src.drop s.lastPos) r := by
  have hlen : 0 < pat.length := List.length_pos_of_ne_nil hp
  intro k
  induction k with
  | zero =>
    intro s hs hk
    have e : s.lastPos = src.length := by omega
    have hf : find src pat s.lastPos = none := by
      by_contra h
      obtain ⟨f, hf⟩ := Option.ne_none_iff_exists'.mp h
      obtain ⟨h1, h2, h3, -⟩ := find_some hf
      have := h3.length_le
      simp at this
      omega
    refine ⟨src.drop s.lastPos, ?_, ?_⟩
    · have := ReplRun.done (src := src) (pat := pat) (rep := rep) (s := s) (by rw [replStep, hf])
      simpa [substr, hs, List.take_of_length_le] using this
    · refine .none fun h => ?_
      have := h.length_le
      simp at this
      omega
  | succ k ih =>
    intro s hs hk
    rcases hf : find src pat s.lastPos with _ | f
    · refine ⟨src.drop s.lastPos, ?_, ?_⟩
      · have := ReplRun.done (src := src) (pat := pat) (rep := rep) (s := s) (by rw [replStep, hf])
        simpa [substr, hs, List.take_of_length_le] using this
      · refine .none ?_
        rintro ⟨pre, post, h⟩
        have hl := congrArg List.length h
        simp only [List.length_append, List.length_drop] at hl
        refine find_none hf (s.lastPos + pre.length) (by omega) (by omega) ?_
        rw [← List.drop_drop, ← h]
        exact ⟨post, by simp⟩
    · obtain ⟨h1, h2, h3, h4⟩ := find_some hf
      have h5 := h3.length_le
      simp at h5
      obtain ⟨r, hr, hR⟩ := ih ⟨s.newString ++ (src.drop s.lastPos).take (f - s.lastPos) ++ rep, f + pat.length⟩
        (by simp only; omega) (by simp only; omega)
      refine ⟨(src.drop s.lastPos).take (f - s.lastPos) ++ rep ++ r, ?_, ?_⟩
      · refine .step (by rw [replStep, hf]) ?_
        simpa [List.append_assoc] using hr
      · obtain ⟨t, ht⟩ := h3
        have ed : src.drop s.lastPos = (src.drop s.lastPos).take (f - s.lastPos) ++ pat ++ t := by
          rw [List.append_assoc, ht]
          conv_lhs => rw [← List.take_append_drop (f - s.lastPos) (src.drop s.lastPos), List.drop_drop]
          rw [show s.lastPos + (f - s.lastPos) = f by omega]
        have et : src.drop (f + pat.length) = t := by
          rw [← List.drop_drop, ← ht]; simp
        conv => arg 3; rw [ed]
        refine .occ ?_ ?_
        · intro pre' post' h
          by_contra hlt
          rw [← ed] at h
          have hl := congrArg List.length h
          simp only [List.length_append, List.length_drop] at hl
          simp only [List.length_take, List.length_drop] at hlt
          refine h4 (s.lastPos + pre'.length) (by omega) (by omega) ?_
          rw [← List.drop_drop, h]
          exact ⟨post', by simp⟩
        · rw [← et]; exact hR

theorem replRun_unique {src pat rep : List Char} {s : RS} {r r' : Option (List Char)} (h : ReplRun src pat rep s r)
    (h' : ReplRun src pat rep s r') : r = r' := by
  induction h with
  | done e =>
    cases h' with
    | done => rfl
    | step e' => rw [e] at e'; cases e'
  | step e _ ih =>
    cases h' with
    | done e' => rw [e] at e'; cases e'
    | step e' h => rw [e] at e'; cases e'; exact ih h

theorem find_empty {src : List Char} {pos : ℕ} (h : pos ≤ src.length) : find src [] pos = some pos := by
  rw [find, show src.length + 1 - pos = (src.length - pos) + 1 by omega, List.range'_succ]
  simp

theorem findLastOf_append_last {s set : List Char} {c : Char} (h : c ∈ set) : findLastOf (s ++ [c]) set = some s.length := by
  rw [findLastOf, List.length_append, List.length_singleton, List.range_succ, List.reverse_append]
  simp [h]

theorem findLastOf_none {s set : List Char} (h : ∀ c ∈ s, c ∉ set) : findLastOf s set = none := by
  rw [findLastOf, List.find?_eq_none]
  intro p hp
  simp only [List.mem_reverse, List.mem_range] at hp
  simp only [decide_eq_true_eq, not_exists, not_and]
  intro c hc
  rw [List.getElem?_eq_getElem hp, Option.mem_some_iff] at hc
  subst hc
  exact h _ (List.getElem_mem hp)

theorem findLastOf_append {s t set : List Char} (h : ∀ c ∈ t, c ∉ set) : findLastOf (s ++ t) set = findLastOf s set := by
  induction t using List.reverseRecOn with
  | nil => simp
  | append_singleton t c ih =>
    rw [← List.append_assoc]
    have hc : c ∉ set := h c (by simp)
    rw [← ih fun d hd => h d (by simp [hd])]
    conv_lhs => rw [findLastOf, List.length_append, List.length_singleton, List.range_succ, List.reverse_append]
    simp only [List.reverse_singleton, List.singleton_append, List.find?_cons]
    have h0 : decide (∃ d ∈ (s ++ t ++ [c])[(s ++ t).length]?, d ∈ set) = false := by simp [hc]
    rw [h0, findLastOf]
    dsimp only
    have hc' : ∀ p ∈ (List.range (s ++ t).length).reverse, decide (∃ d ∈ (s ++ t ++ [c])[p]?, d ∈ set) =
        decide (∃ d ∈ (s ++ t)[p]?, d ∈ set) := by
      intro p hp
      rw [List.mem_reverse, List.mem_range] at hp
      rw [List.getElem?_append_left hp]
    generalize (List.range (s ++ t).length).reverse = l at hc'
    clear ih h
    induction l with
    | nil => rfl
    | cons a l ih =>
      rw [List.find?_cons, List.find?_cons, hc' a (by simp), ih fun p hp => hc' p (by simp [hp])]

theorem toInt_some {p : ℕ} (h : p < 2147483648) : toInt (some p) = p := by
  have h' : (p:ℤ) < 2147483648 := by omega
  have e : (p:ℤ) % 4294967296 = p := Int.emod_eq_of_lt (Int.natCast_nonneg _) (lt_trans h' (by norm_num))
  have : toInt (some p) = if (p : ℤ) % 4294967296 < 2147483648 then (p : ℤ) % 4294967296 else (p : ℤ) % 4294967296 - 4294967296 := rfl
  rw [this, e, if_pos h']

theorem toSize_nat (n : ℕ) (h : n < 18446744073709551616) : toSize (n : ℤ) = n := by
  rw [toSize]; omega

end Thunder.Text
