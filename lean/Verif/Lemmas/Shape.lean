import Verif.Lemmas.Quiet

/-!
# Replacements in a text with markers

A text whose lines are quiet except for marker lines keeps this shape under the replacements of the patterns that do not occur in the markers;
replacing a marker inserts the lines of the replacement.
-/

namespace Thunder.Text

open Spec

variable {pat rep s l m p t : List Char} {bad : List Char} {pats : List (List Char)} {ls : List (List Char)}

/-! ## Sequences of replacements -/

theorem replaceSeq_iff {ps : List (List Char × List Char)} (h : ∀ p ∈ ps, p.1 ≠ []) {s : List Char} {r : Option (List Char)} :
    ReplaceSeq ps s r ↔ r = some (ps.foldl (fun s p => repl p.1 p.2 s) s) := by
  induction ps generalizing s with
  | nil =>
    constructor
    · intro hr; cases hr; rfl
    · rintro rfl; exact .nil
  | cons p ps ih =>
    have hp := h p List.mem_cons_self
    have ih' := @ih fun q hq => h q (List.mem_cons_of_mem _ hq)
    constructor
    · intro hr
      cases hr with
      | cons h1 h2 =>
        rw [replaceAll_iff hp] at h1
        obtain rfl := Option.some.inj h1
        exact ih'.1 h2
      | exc h1 => rw [replaceAll_iff hp] at h1; cases h1
    · intro hr
      exact .cons ((replaceAll_iff hp).2 rfl) (ih'.2 hr)

/-! ## Lines -/

theorem unlines_cons (h : ls ≠ []) : unlines (l :: ls) = l ++ '\n' :: unlines ls := Text.unlines_cons' h

theorem unlines_singleton : unlines [l] = l := by simp [unlines, List.intercalate]

theorem unlines_append {ls' : List (List Char)} (h : ls ≠ []) (h' : ls' ≠ []) : unlines (ls ++ ls') = unlines ls ++ '\n' :: unlines ls' := by
  induction ls with
  | nil => exact absurd rfl h
  | cons l ls ih =>
    by_cases hls : ls = []
    · subst hls
      rw [unlines_singleton, List.singleton_append, unlines_cons h']
    · rw [List.cons_append, unlines_cons (by simp [hls]), ih hls, unlines_cons hls, List.append_assoc, List.cons_append]

theorem repl_unlines (hp : pat ≠ []) (hn : '\n' ∉ pat) (ls : List (List Char)) : repl pat rep (unlines ls) = unlines (ls.map (repl pat rep)) := by
  induction ls with
  | nil => exact repl_nil hp
  | cons l ls ih =>
    by_cases hls : ls = []
    · subst hls
      simp [unlines_singleton]
    · rw [unlines_cons hls, repl_newline hp hn, ih, List.map_cons, unlines_cons (by simpa using hls)]

/-- The lines of one line are spliced in. -/
theorem unlines_splice {a : List Char} {A R B : List (List Char)} {ws : List Char} :
    unlines (A ++ (ws ++ unlines (a :: R)) :: B) = unlines (A ++ (ws ++ a) :: (R ++ B)) := by
  have h1 : ∀ B, unlines ((ws ++ unlines (a :: R)) :: B) = unlines ((ws ++ a) :: (R ++ B)) := by
    intro B
    rcases eq_or_ne R [] with rfl | hR
    · rw [unlines_singleton, List.nil_append]
    · rcases eq_or_ne B [] with rfl | hB
      · rw [unlines_singleton, List.append_nil, unlines_cons hR, unlines_cons hR, List.append_assoc]
      · rw [unlines_cons hB, unlines_cons hR, unlines_cons (by simp [hB]), unlines_append hR hB]
        simp [List.append_assoc]
  rcases eq_or_ne A [] with rfl | hA
  · exact h1 B
  · rw [unlines_append hA (by simp), h1, unlines_append hA (by simp)]

/-- An occurrence of a pattern in a text is in one of the lines. -/
theorem occ_line (hp : pat ≠ []) (hn : '\n' ∉ pat) : ∀ (ls : List (List Char)) (u v : List Char), unlines ls = u ++ pat ++ v →
    ∃ A p s B, ls = A ++ (p ++ pat ++ s) :: B ∧ ∀ rep, u ++ rep ++ v = unlines (A ++ (p ++ rep ++ s) :: B) := by
  intro ls
  induction ls with
  | nil =>
    intro u v e
    have := congrArg List.length e
    have h0 := List.length_pos_of_ne_nil hp
    simp [unlines] at this
    omega
  | cons l ls ih =>
    intro u v e
    by_cases hls : ls = []
    · subst hls
      rw [unlines_singleton] at e
      exact ⟨[], u, v, [], by rw [e]; rfl, fun rep => by rw [List.nil_append, unlines_singleton]⟩
    · rw [unlines_cons hls] at e
      rcases apart_newline hn u v e with h | h
      · obtain ⟨q, hq⟩ := Apart.infix_left e h
        have hv : v = q ++ '\n' :: unlines ls := by
          rw [hq, List.append_assoc _ q] at e
          exact (List.append_cancel_left e).symm
        exact ⟨[], u, q, ls, by rw [hq]; rfl, fun rep => by rw [List.nil_append, unlines_cons hls, hv]; simp⟩
      · obtain ⟨q, hq, hu⟩ := Apart.infix_right e h
        rcases q with _ | ⟨c, q⟩
        · exfalso
          rcases pat with _ | ⟨c, pat⟩
          · exact hp rfl
          · simp only [List.nil_append, List.cons_append] at hq
            obtain ⟨rfl, -⟩ := List.cons.inj hq
            exact hn List.mem_cons_self
        · simp only [List.cons_append] at hq
          obtain ⟨rfl, hq'⟩ := List.cons.inj hq
          obtain ⟨A, p, s, B, h1, h2⟩ := ih q v hq'
          refine ⟨l :: A, p, s, B, by rw [h1]; rfl, fun rep => ?_⟩
          rw [List.cons_append, unlines_cons (by simp), ← h2 rep, hu]
          simp

theorem infix_unlines (h : l ∈ ls) (hi : pat <:+: l) : pat <:+: unlines ls := by
  obtain ⟨A, B, rfl⟩ := List.append_of_mem h
  have h1 : l <:+: unlines (l :: B) := by
    rcases eq_or_ne B [] with rfl | hB
    · rw [unlines_singleton]
    · rw [unlines_cons hB]; exact (List.prefix_append _ _).isInfix
  refine hi.trans (h1.trans ?_)
  rcases eq_or_ne A [] with rfl | hA
  · exact List.infix_rfl
  · rw [unlines_append hA (by simp)]
    exact ((List.suffix_cons _ _).trans (List.suffix_append _ _)).isInfix

theorem replaceFirst_some (h : pat <:+: s) : ∃ r, replaceFirst s pat rep = some r := by
  obtain ⟨u, v, rfl⟩ := h
  rcases hf : find (u ++ pat ++ v) pat 0 with _ | f
  · exact absurd ⟨v, by simp⟩ (find_none hf u.length (Nat.zero_le _) (by simp))
  · exact ⟨_, by rw [replaceFirst, hf]; rfl⟩

theorem replaceFirst_occ {r : List Char} (h : replaceFirst s pat rep = some r) : ∃ u v, s = u ++ pat ++ v ∧ r = u ++ rep ++ v := by
  rcases hf : find s pat 0 with _ | f
  · rw [replaceFirst, hf] at h; cases h
  · rw [replaceFirst, hf] at h
    obtain ⟨-, h2, h3, -⟩ := find_some hf
    obtain ⟨u, v, rfl, rfl⟩ := (prefix_drop_iff h2).1 h3
    refine ⟨u, v, rfl, ?_⟩
    simp only [Option.map_some, Option.some.injEq] at h
    rw [← h]
    have e1 : List.take u.length (u ++ pat ++ v) = u := by rw [List.append_assoc, List.take_left]
    have e2 : List.drop (u.length + pat.length) (u ++ pat ++ v) = v := by
      rw [← List.length_append, List.drop_left]
    rw [e1, e2]

/-! ## Shape -/

/-- What is known of a line: nothing but quiet, or a marker line. -/
def Fits (pats : List (List Char)) (bad : List Char) : Option (List Char) → List Char → Prop
  | none, l => Quiet pats bad l
  | some m, l => l = m

/-- The text consists of such lines. -/
def Shape (pats : List (List Char)) (bad : List Char) (ks : List (Option (List Char))) (t : List Char) : Prop :=
  ∃ ls, t = unlines ls ∧ List.Forall₂ (Fits pats bad) ks ls

variable {ks : List (Option (List Char))}

theorem Shape.repl (h : Shape pats bad ks t) (hm : pat ∈ pats) (hp : PatOk pat) (hr : RepOk rep) (hk : ∀ m, some m ∈ ks → ¬ pat <:+: m) :
    Shape pats bad ks (repl pat rep t) := by
  obtain ⟨ls, rfl, h⟩ := h
  refine ⟨ls.map (Text.repl pat rep), repl_unlines hp.ne hp.nl ls, ?_⟩
  rw [List.forall₂_map_right_iff]
  induction h with
  | nil => exact .nil
  | @cons k l ks ls h1 _ ih =>
    refine .cons ?_ (ih fun m hm => hk m (List.mem_cons_of_mem _ hm))
    cases k with
    | none => exact h1.repl hm hp hr
    | some m =>
      obtain rfl : l = m := h1
      exact repl_none hp.ne (hk l List.mem_cons_self)

theorem Shape.first {r : List Char} (h : Shape pats bad ks t) (hm : pat ∈ pats) (hp : PatOk pat) (hr : RepOk rep) (hk : ∀ m, some m ∈ ks → ¬ pat <:+: m)
    (hf : replaceFirst t pat rep = some r) : Shape pats bad ks r := by
  obtain ⟨ls, rfl, h⟩ := h
  obtain ⟨u, v, e, rfl⟩ := replaceFirst_occ hf
  obtain ⟨A, p, s, B, rfl, e2⟩ := occ_line hp.ne hp.nl ls u v e
  refine ⟨_, e2 rep, ?_⟩
  clear e e2 hf
  induction A generalizing ks with
  | nil =>
    cases h with
    | @cons k _ ks _ h1 h2 =>
      refine .cons ?_ h2
      cases k with
      | none => exact Quiet.mid h1 hm hp hr
      | some m => exact absurd ⟨p, s, h1⟩ (hk m List.mem_cons_self)
  | cons a A ih =>
    cases h with
    | cons h1 h2 => exact .cons h1 (ih (fun m hm => hk m (List.mem_cons_of_mem _ hm)) h2)

theorem shape_replicate {n : ℕ} (h : List.Forall₂ (Fits pats bad) (List.replicate n none) ls) : ∀ l ∈ ls, Quiet pats bad l := by
  induction n generalizing ls with
  | zero => cases h; simp
  | succ n ih =>
    rw [List.replicate_succ] at h
    cases h with
    | cons h1 h2 =>
      intro l hl
      rcases List.mem_cons.1 hl with rfl | hl
      · exact h1
      · exact ih h2 l hl

theorem shape_split {a : ℕ} {ks : List (Option (List Char))} (h : List.Forall₂ (Fits pats bad) (List.replicate a none ++ some m :: ks) ls) :
    ∃ A B, ls = A ++ m :: B ∧ (∀ l ∈ A, Quiet pats bad l) ∧ List.Forall₂ (Fits pats bad) ks B := by
  induction a generalizing ls with
  | zero =>
    rw [List.replicate_zero, List.nil_append] at h
    cases h with
    | @cons _ l _ B h3 h4 =>
      obtain rfl : l = m := h3
      exact ⟨[], B, rfl, by simp, h4⟩
  | succ a ih =>
    rw [List.replicate_succ, List.cons_append] at h
    cases h with
    | @cons _ l _ _ h3 h4 =>
      obtain ⟨A, B, rfl, h5, h6⟩ := ih h4
      refine ⟨l :: A, B, rfl, fun x hx => ?_, h6⟩
      rcases List.mem_cons.1 hx with rfl | hx
      · exact h3
      · exact h5 x hx

/-! ## Replacing a marker -/

theorem repl_marker {ws : List Char} {r₀ : List Char} {A B R : List (List Char)} (hp : pat ≠ []) (hn : '\n' ∉ pat) (hw : Stable pat ws)
    (hA : ∀ l ∈ A, ¬ pat <:+: l) (hB : ∀ l ∈ B, ¬ pat <:+: l) :
    repl pat (unlines (r₀ :: R)) (unlines (A ++ (ws ++ pat) :: B)) = unlines (A ++ (ws ++ r₀) :: (R ++ B)) := by
  have hq : ∀ L : List (List Char), (∀ l ∈ L, ¬ pat <:+: l) → L.map (repl pat (unlines (r₀ :: R))) = L := by
    intro L hL
    refine (List.map_congr_left fun l hl => repl_none hp (hL l hl)).trans (List.map_id' _)
  have he : repl pat (unlines (r₀ :: R)) (ws ++ pat) = ws ++ unlines (r₀ :: R) := by
    rw [repl_stable hp hw]
    have := repl_pat (rep := unlines (r₀ :: R)) (s := []) hp
    rw [List.append_nil, repl_nil hp, List.append_nil] at this
    rw [this]
  rw [repl_unlines hp hn, List.map_append, List.map_cons, hq A hA, hq B hB, he, unlines_splice]

/-- A marker `…#-x…` with `x` among the characters that may not follow `#-`. -/
def Marker (bad pat : List Char) : Prop := ∃ a x b, pat = a ++ '#' :: '-' :: x :: b ∧ x ∈ bad

theorem Quiet.no_marker (h : Quiet pats bad l) (hm : Marker bad pat) : ¬ pat <:+: l := by
  obtain ⟨a, x, b, rfl, hx⟩ := hm
  rintro ⟨u, v, rfl⟩
  have := h.calm
  rw [← List.append_assoc] at this
  exact calm_not (p := u ++ a) (m := x :: b) (s := v) (by simpa using this) rfl hx

/-! ## Terminated lines -/

theorem unlines_concat (L : List (List Char)) (x : List Char) : unlines (L ++ [x]) = L.flatMap (fun l => l ++ ['\n']) ++ x := by
  induction L with
  | nil => rw [List.nil_append, unlines_singleton]; rfl
  | cons l L ih =>
    rw [List.cons_append, unlines_cons (by simp), ih]
    simp

theorem textLines_unlines (h : ∀ l ∈ ls, '\n' ∉ l) (hn : ls ≠ []) : textLines (unlines ls) = ls := List.splitOn_intercalate _ h hn

/-! ## Templates -/

/-- The kinds of the lines of a template. -/
def kinds (pats : List (List Char)) (bad : List Char) (L : List (List Char)) : List (Option (List Char)) :=
  L.map fun l => if quiet pats bad l then none else some l

theorem shape_template (L : List (List Char)) : Shape pats bad (kinds pats bad L) (unlines L) := by
  refine ⟨L, rfl, ?_⟩
  rw [kinds, List.forall₂_map_left_iff]
  induction L with
  | nil => exact .nil
  | cons l L ih =>
    refine .cons ?_ ih
    split_ifs with h
    · exact quiet_spec h
    · rfl

theorem kinds_nil {L : List (List Char)} (h : (L.filter fun l => !quiet pats bad l) = []) : kinds pats bad L = List.replicate L.length none := by
  rw [List.filter_eq_nil_iff] at h
  rw [kinds, List.eq_replicate_iff]
  refine ⟨by simp, fun k hk => ?_⟩
  obtain ⟨l, hl, rfl⟩ := List.mem_map.1 hk
  have := h l hl
  simp only [Bool.not_eq_true', Bool.not_eq_false] at this
  rw [if_pos this]

theorem kinds_cons {L M : List (List Char)} (h : (L.filter fun l => !quiet pats bad l) = m :: M) :
    ∃ a L', kinds pats bad L = List.replicate a none ++ some m :: kinds pats bad L' ∧ (L'.filter fun l => !quiet pats bad l) = M := by
  obtain ⟨l₁, l₂, rfl, h1, h2, h3⟩ := List.filter_eq_cons_iff.1 h
  refine ⟨l₁.length, l₂, ?_, h3⟩
  have e := kinds_nil (pats := pats) (bad := bad) (L := l₁) (List.filter_eq_nil_iff.2 h1)
  unfold kinds at e ⊢
  rw [List.map_append, List.map_cons, e, if_neg]
  simpa using h2

end Thunder.Text
