import Verif.Props.Text

/-!
# Replacing in a text built from pieces and lines
-/

namespace Thunder.Text

open Spec

variable {pat rep s l m p : List Char}

/-- The result of `replace_all` (the text itself for an empty pattern). -/
noncomputable def repl (pat rep s : List Char) : List Char :=
  if h : pat = [] then s else Classical.choose (C45_replace_all s pat rep h)

theorem repl_run (hp : pat ≠ []) : ReplaceAll s pat rep (some (repl pat rep s)) := by
  rw [repl, dif_neg hp]
  exact (Classical.choose_spec (C45_replace_all s pat rep hp)).1

theorem repl_spec (hp : pat ≠ []) : Replaced pat rep s (repl pat rep s) := by
  rw [repl, dif_neg hp]
  exact (Classical.choose_spec (C45_replace_all s pat rep hp)).2.1

theorem replaceAll_iff (hp : pat ≠ []) {r : Option (List Char)} : ReplaceAll s pat rep r ↔ r = some (repl pat rep s) :=
  ⟨fun h => replRun_unique h (repl_run hp), fun h => h ▸ repl_run hp⟩

theorem repl_eq (hp : pat ≠ []) {r : List Char} (h : Replaced pat rep s r) : repl pat rep s = r := C45_spec_unique _ _ (repl_spec hp) h

theorem repl_none (hp : pat ≠ []) (h : ¬ pat <:+: s) : repl pat rep s = s := repl_eq hp (.none h)

/-- No occurrence of `pat` in `l ++ m` overlaps the border. -/
def Apart (pat l m : List Char) : Prop :=
  ∀ pre post, l ++ m = pre ++ pat ++ post → pre.length + pat.length ≤ l.length ∨ l.length ≤ pre.length

theorem Apart.infix_left {pre post : List Char} (e : l ++ m = pre ++ pat ++ post) (h : pre.length + pat.length ≤ l.length) :
    ∃ post', l = pre ++ pat ++ post' := by
  obtain ⟨a, h1⟩ | ⟨a, h1⟩ := List.append_eq_append_iff.1 e
  · have := congrArg List.length h1.1
    simp only [List.length_append] at this
    have ha : a = [] := List.length_eq_zero_iff.1 (by omega)
    subst ha
    exact ⟨[], by simpa using h1.1.symm⟩
  · exact ⟨a, h1.1⟩

theorem Apart.infix_right {pre post : List Char} (e : l ++ m = pre ++ pat ++ post) (h : l.length ≤ pre.length) :
    ∃ pre', m = pre' ++ pat ++ post ∧ pre = l ++ pre' := by
  rw [List.append_assoc] at e
  obtain ⟨a, h1⟩ | ⟨a, h1⟩ := List.append_eq_append_iff.1 e
  · exact ⟨a, by rw [h1.2, List.append_assoc], h1.1⟩
  · have := congrArg List.length h1.1
    simp only [List.length_append] at this
    have ha : a = [] := List.length_eq_zero_iff.1 (by omega)
    subst ha
    exact ⟨[], by simpa using h1.2.symm, by simpa using h1.1.symm⟩

theorem Replaced.append {r r' : List Char} (h : Replaced pat rep l r) (h' : Replaced pat rep m r') (ha : Apart pat l m) :
    Replaced pat rep (l ++ m) (r ++ r') := by
  induction h with
  | @none l hn =>
    cases h' with
    | none hm =>
      refine .none fun ⟨pre, post, e⟩ => ?_
      rcases ha pre post e.symm with h | h
      · obtain ⟨post', e'⟩ := Apart.infix_left e.symm h
        exact hn ⟨pre, post', e'.symm⟩
      · obtain ⟨pre', e', -⟩ := Apart.infix_right e.symm h
        exact hm ⟨pre', post, e'.symm⟩
    | @occ pre post t hl ht =>
      rw [← List.append_assoc, ← List.append_assoc, ← List.append_assoc, ← List.append_assoc]
      refine .occ (fun pre' post' e => ?_) ht
      rw [List.append_assoc, List.append_assoc, ← List.append_assoc pre] at e
      rcases ha pre' post' e with h | h
      · obtain ⟨q, e'⟩ := Apart.infix_left e h
        exact absurd ⟨pre', q, e'.symm⟩ hn
      · obtain ⟨q, e', e2⟩ := Apart.infix_right e h
        have := hl _ _ e'
        rw [e2]; simp; exact this
  | @occ pre post t hl _ ih =>
    have e0 : pre ++ pat ++ post ++ m = pre ++ pat ++ (post ++ m) := by simp
    have e1 : pre ++ rep ++ t ++ r' = pre ++ rep ++ (t ++ r') := by simp
    rw [e0, e1]
    refine .occ (fun pre' post' e => ?_) (ih fun pre' post' e => ?_)
    · rw [← e0] at e
      rcases ha pre' post' e with h | h
      · obtain ⟨q, e'⟩ := Apart.infix_left e h
        exact hl _ _ e'
      · simp at h; omega
    · have := ha (pre ++ pat ++ pre') post' (by rw [e0, e]; simp)
      simp only [List.length_append] at this
      omega

theorem repl_append (hp : pat ≠ []) (ha : Apart pat l m) : repl pat rep (l ++ m) = repl pat rep l ++ repl pat rep m :=
  repl_eq hp (Replaced.append (repl_spec hp) (repl_spec hp) ha)

theorem repl_nil (hp : pat ≠ []) : repl pat rep [] = [] := repl_none hp (by simpa using hp)

/-- One character that does not start an occurrence. -/
theorem repl_cons (hp : pat ≠ []) {c : Char} (h : ¬ pat <+: c :: s) : repl pat rep (c :: s) = c :: repl pat rep s := by
  have ha : Apart pat [c] s := by
    intro pre post e
    rcases pre with _ | ⟨d, pre⟩
    · exact absurd ⟨post, by simpa using e.symm⟩ h
    · right; simp
  have h1 : repl pat rep [c] = [c] := by
    refine repl_none hp fun ⟨pre, post, e⟩ => ?_
    have hl := congrArg List.length e
    have := List.length_pos_of_ne_nil hp
    simp only [List.length_append, List.length_singleton] at hl
    have : pre = [] := List.length_eq_zero_iff.1 (by omega)
    subst this
    exact h (((List.prefix_append pat post).trans (by simpa using e ▸ List.prefix_rfl)).trans (List.prefix_append [c] s))
  have := repl_append (rep := rep) hp ha
  rwa [h1] at this

/-- An occurrence at the beginning. -/
theorem repl_pat (hp : pat ≠ []) : repl pat rep (pat ++ s) = rep ++ repl pat rep s :=
  repl_eq hp (Replaced.occ (pre := []) (fun _ _ _ => Nat.zero_le _) (repl_spec hp))

/-- Induction along the scan. -/
theorem repl_induct (hp : pat ≠ []) {P : List Char → List Char → Prop} (h0 : P [] [])
    (h1 : ∀ c s, ¬ pat <+: c :: s → P s (repl pat rep s) → P (c :: s) (c :: repl pat rep s))
    (h2 : ∀ s, P s (repl pat rep s) → P (pat ++ s) (rep ++ repl pat rep s)) (s : List Char) : P s (repl pat rep s) := by
  induction hn : s.length using Nat.strong_induction_on generalizing s with
  | _ n ih =>
    subst hn
    by_cases h : pat <+: s
    · obtain ⟨t, rfl⟩ := h
      rw [repl_pat hp]
      exact h2 t (ih _ (by have := List.length_pos_of_ne_nil hp; simp; omega) t rfl)
    · rcases s with _ | ⟨c, s⟩
      · rw [repl_nil hp]; exact h0
      · rw [repl_cons hp h]
        exact h1 c s h (ih _ (by simp) s rfl)

/-- No character outside the text and the replacement. -/
theorem mem_repl (hp : pat ≠ []) {c : Char} (h : c ∈ repl pat rep s) : c ∈ s ∨ c ∈ rep := by
  revert h
  refine repl_induct (P := fun s r => c ∈ r → c ∈ s ∨ c ∈ rep) hp (fun h => by cases h) (fun d s _ ih h => ?_) (fun s ih h => ?_) s
  · rcases List.mem_cons.1 h with h | h
    · left; simp [h]
    · rcases ih h with h | h
      · left; simp [h]
      · exact .inr h
  · rcases List.mem_append.1 h with h | h
    · exact .inr h
    · rcases ih h with h | h
      · left; simp [h]
      · exact .inr h

/-! ## Stable prefixes -/

/-- No occurrence of `pat` starts inside `p`, whatever follows. -/
def Stable (pat p : List Char) : Prop := ∀ t, t ≠ [] → t <:+ p → ¬ t <+: pat ∧ ¬ pat <+: t

theorem Stable.not_prefix (h : Stable pat p) {t : List Char} (ht : t ≠ []) (hs : t <:+ p) : ¬ pat <+: t ++ s := by
  intro hx
  rcases List.prefix_or_prefix_of_prefix hx (List.prefix_append t s) with h1 | h1
  · exact (h t ht hs).2 h1
  · exact (h t ht hs).1 h1

theorem repl_stable (hp : pat ≠ []) (h : Stable pat p) : repl pat rep (p ++ s) = p ++ repl pat rep s := by
  induction p with
  | nil => rfl
  | cons c p ih =>
    have h1 := h.not_prefix (s := s) (List.cons_ne_nil c p) List.suffix_rfl
    rw [List.cons_append] at h1
    rw [List.cons_append, repl_cons hp h1, ih fun t ht hs => h t ht (hs.trans (List.suffix_cons c p)), List.cons_append]

theorem find_stable (h : Stable pat p) : find (p ++ pat ++ s) pat 0 = some p.length := by
  rcases hf : find (p ++ pat ++ s) pat 0 with _ | f
  · exact absurd ⟨s, by simp⟩ (find_none hf p.length (Nat.zero_le _) (by simp))
  · obtain ⟨-, h2, h3, h4⟩ := find_some hf
    rcases Nat.lt_trichotomy f p.length with hlt | rfl | hgt
    · exfalso
      rw [List.append_assoc, List.drop_append_of_le_length hlt.le] at h3
      exact h.not_prefix (by simpa using hlt) (List.drop_suffix _ _) h3
    · rfl
    · exact absurd ⟨s, by simp⟩ (h4 p.length (Nat.zero_le _) hgt)

/-! ## Lines -/

theorem unlines_cons' {ls : List (List Char)} (h : ls ≠ []) : List.intercalate ['\n'] (l :: ls) = l ++ '\n' :: List.intercalate ['\n'] ls := by
  cases ls with
  | nil => exact absurd rfl h
  | cons a t => simp [List.intercalate]

theorem apart_newline (hn : '\n' ∉ pat) : Apart pat l ('\n' :: m) := by
  intro pre post e
  by_contra hc
  rw [not_or, not_le, not_le] at hc
  have e1 : (l ++ '\n' :: m)[l.length]? = some '\n' := by simp
  rw [e, List.append_assoc, List.getElem?_append_right (by omega), List.getElem?_append_left (by omega)] at e1
  exact hn (List.mem_of_getElem? e1)

theorem repl_newline (hp : pat ≠ []) (hn : '\n' ∉ pat) : repl pat rep (l ++ '\n' :: m) = repl pat rep l ++ '\n' :: repl pat rep m := by
  rw [repl_append hp (apart_newline hn), repl_cons hp]
  rintro ⟨t, e⟩
  rcases pat with _ | ⟨c, pat⟩
  · exact hp rfl
  · rw [List.cons_append] at e
    obtain ⟨rfl, -⟩ := List.cons.inj e
    exact hn List.mem_cons_self

end Thunder.Text
