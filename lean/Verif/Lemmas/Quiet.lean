import Verif.Lemmas.Replace
import Verif.Model.Instantiate
import Verif.Spec.Instantiate

/-!
# Lines that are no getters, whatever the replacements
-/

namespace Thunder.Text

open Spec

variable {pat rep s l m p q : List Char} {bad : List Char} {pats : List (List Char)}

/-! ## Decimal numbers -/

theorem dec_eq (n : ℕ) : dec n = Nat.toDigits 10 n := by
  show (toString n).toList = _
  rw [Nat.toString_eq_repr, Nat.toList_repr]

theorem isDigit_dec {n : ℕ} {c : Char} (h : c ∈ Nat.toDigits 10 n) : c.isDigit = true := Nat.isDigit_of_mem_toDigits (by omega) (by omega) h

/-! ## Lines -/

/-- A space or a tab. -/
def isBlank (c : Char) : Bool := c == ' ' || c == '\t'

theorem blank_iff : Blank l ↔ l.all isBlank = true := by
  simp [Blank, isBlank, List.all_eq_true]

/-- The beginning of the type of a getter. -/
def typeHead : List Char := ch "Eigen::Matrix<double,"

theorem typeHead_cons : typeHead = 'E' :: typeHead.tail := by decide +kernel

attribute [irreducible] typeHead

theorem dropWhile_nil {f : Char → Bool} : l.dropWhile f = [] ↔ ∀ c ∈ l, f c = true := by
  induction l with
  | nil => simp
  | cons c l ih =>
    rw [List.dropWhile_cons]
    split_ifs with h <;> simp [h, ih]

theorem not_isPrefixOf (h : l.isPrefixOf m = false) : ¬ l <+: m := by
  rw [← List.isPrefixOf_iff_prefix, h]; simp

/-- What begins with `q` is neither blank nor begins with the type of a getter. -/
def never (q : List Char) : Bool :=
  let p := q.dropWhile isBlank
  !(p.isPrefixOf typeHead) && !(typeHead.isPrefixOf p && ((p.drop typeHead.length).head?.any Char.isDigit))

theorem never_spec (h : never q = true) (hq : q <+: l) {ws t : List Char} {d : Char} (hw : Blank ws) (hd : d.isDigit = true) :
    l ≠ ws ++ typeHead ++ d :: t := by
  rintro rfl
  simp only [never, Bool.and_eq_true, Bool.not_eq_true', Bool.and_eq_false_iff] at h
  obtain ⟨h1, h2⟩ := h
  replace h1 := not_isPrefixOf h1
  replace h2 := h2.imp_left not_isPrefixOf
  rw [List.append_assoc] at hq
  -- blanks of `q`
  have key : q.dropWhile isBlank <+: typeHead ++ d :: t := by
    rcases List.prefix_or_prefix_of_prefix hq (List.prefix_append ws _) with hx | hx
    · have : q.dropWhile isBlank = [] := by
        rw [dropWhile_nil]
        intro c hc
        have := hw c (hx.subset hc)
        simpa [isBlank] using this
      rw [this]; exact List.nil_prefix
    · obtain ⟨q', rfl⟩ := hx
      rw [List.prefix_append_right_inj] at hq
      have e : (ws ++ q').dropWhile isBlank = q'.dropWhile isBlank := by
        rw [List.dropWhile_append]
        have : ws.dropWhile isBlank = [] := by
          rw [dropWhile_nil]
          intro c hc
          simpa [isBlank] using hw c hc
        rw [this]; rfl
      rw [e]
      rcases q' with _ | ⟨c, q'⟩
      · exact List.nil_prefix
      · have hc : c = 'E' := by
          obtain ⟨u, hu⟩ := hq
          rw [typeHead_cons] at hu
          exact (List.cons.inj hu).1
        subst hc
        exact hq
  rcases List.prefix_or_prefix_of_prefix key (List.prefix_append typeHead _) with hx | hx
  · exact h1 hx
  · rcases h2 with h2 | h2
    · exact h2 hx
    · obtain ⟨u, hu⟩ := hx
      rw [← hu] at key h2 h1
      rw [List.prefix_append_right_inj] at key
      rw [List.drop_left] at h2
      rcases u with _ | ⟨c, u⟩
      · exact h1 (by simp)
      · obtain ⟨v, hv⟩ := key
        have : c = d := by simpa using congrArg List.head? hv
        subst this
        simp [hd] at h2

theorem digits_cons (n : ℕ) : ∃ d t, Nat.toDigits 10 n = d :: t ∧ d.isDigit = true := by
  rcases h : Nat.toDigits 10 n with _ | ⟨d, t⟩
  · exact absurd h Nat.toDigits_ne_nil
  · exact ⟨d, t, rfl, isDigit_dec (n := n) (by rw [h]; exact List.mem_cons_self)⟩

theorem type_eq (g : Getter) : ∃ d t, d.isDigit = true ∧ g.type = typeHead ++ d :: t := by
  obtain ⟨d, t, e, hd⟩ := digits_cons g.rows
  refine ⟨d, t ++ [','] ++ Nat.toDigits 10 g.cols ++ ['>'], hd, ?_⟩
  unfold Getter.type typeHead
  rw [e]
  simp only [List.append_assoc, List.cons_append]

theorem not_declares (h : never q = true) (hq : q <+: l) (g : Getter) : ¬ Declares l g := by
  rintro ⟨ws, hw, e⟩
  obtain ⟨d, t, hd, e'⟩ := type_eq g
  rw [e'] at e
  exact never_spec h hq hw hd (by simpa using e)

theorem not_opens (h : never q = true) (hq : q <+: l) (robot : List Char) (g : Getter) : ¬ Opens robot l g := by
  rintro ⟨ws, hw, e⟩
  obtain ⟨d, t, hd, e'⟩ := type_eq g
  rw [e'] at e
  exact never_spec h hq hw hd (by simpa using e)

theorem blank_ne (h : Blank l) {ws t : List Char} {d : Char} : l ≠ ws ++ typeHead ++ d :: t := by
  rintro rfl
  have := h 'E' (by rw [typeHead_cons]; simp)
  revert this
  decide

theorem not_declares_blank (h : Blank l) (g : Getter) : ¬ Declares l g := by
  rintro ⟨ws, hw, e⟩
  obtain ⟨d, t, hd, e'⟩ := type_eq g
  rw [e'] at e
  exact blank_ne h (by simpa using e)

theorem not_opens_blank (h : Blank l) (robot : List Char) (g : Getter) : ¬ Opens robot l g := by
  rintro ⟨ws, hw, e⟩
  obtain ⟨d, t, hd, e'⟩ := type_eq g
  rw [e'] at e
  exact blank_ne h (by simpa using e)

/-! ## Markers -/

/-- First characters of the patterns. -/
def starts : List Char := ['r', 'T', '/']

/-- What may follow `#`: no first character of a pattern, and after `-` also none of `bad`. -/
def after (bad : List Char) : List Char → Bool
  | [] => true
  | d :: t => !starts.contains d && (d != '-' || match t with | [] => true | x :: _ => !starts.contains x && !bad.contains x)

/-- Every `#` of the line is followed so. -/
def calm (bad : List Char) : List Char → Bool
  | [] => true
  | c :: t => (c != '#' || after bad t) && calm bad t

theorem calm_suffix : ∀ {a : List Char}, calm bad (a ++ s) = true → calm bad s = true
  | [], h => h
  | c :: a, h => calm_suffix (a := a) (by
      rw [List.cons_append, calm, Bool.and_eq_true] at h
      exact h.2)

theorem calm_append (h : '#' ∉ p) (hs : calm bad s = true) : calm bad (p ++ s) = true := by
  induction p with
  | nil => exact hs
  | cons c p ih =>
    rw [List.mem_cons, not_or] at h
    rw [List.cons_append, calm, ih h.2, Bool.and_true]
    simp [Ne.symm h.1]

theorem calm_not (h : calm bad (p ++ '#' :: '-' :: m ++ s) = true) {x : Char} {m' : List Char} (hm : m = x :: m') : x ∉ bad := by
  subst hm
  rw [List.append_assoc] at h
  have := calm_suffix h
  simp only [List.cons_append, calm, after] at this
  simp only [Bool.and_eq_true] at this
  have := this.1
  simp at this
  tauto

/-- A pattern: it starts with one of `starts` and is within a line. -/
structure PatOk (pat : List Char) : Prop where
  start : ∃ c t, pat = c :: t ∧ c ∈ starts
  nl : '\n' ∉ pat

theorem PatOk.ne (h : PatOk pat) : pat ≠ [] := by
  obtain ⟨c, t, rfl, -⟩ := h.start
  exact List.cons_ne_nil _ _

theorem PatOk.not_prefix (h : PatOk pat) {c : Char} (hc : c ∉ starts) : ¬ pat <+: c :: s := by
  obtain ⟨d, t, rfl, hd⟩ := h.start
  rintro ⟨u, e⟩
  rw [List.cons_append] at e
  obtain ⟨rfl, -⟩ := List.cons.inj e
  exact hc hd

theorem after_repl (h : PatOk pat) (hs : after bad s = true) : after bad (repl pat rep s) = true := by
  rcases s with _ | ⟨d, t⟩
  · rw [repl_nil h.ne]; rfl
  · have hs' := hs
    simp only [after, Bool.and_eq_true, Bool.not_eq_true', List.contains_eq_mem, decide_eq_false_iff_not] at hs
    rw [repl_cons h.ne (h.not_prefix hs.1)]
    by_cases hd : d = '-'
    · subst hd
      rcases t with _ | ⟨x, t⟩
      · rw [repl_nil h.ne]; exact hs'
      · have hx : x ∉ starts := by
          have := hs.2
          simp at this
          exact this.1
        rw [repl_cons h.ne (h.not_prefix hx)]
        exact hs'
    · simp [after, hs.1, hd]

theorem calm_repl (h : PatOk pat) (hr : '#' ∉ rep) (hs : calm bad s = true) : calm bad (repl pat rep s) = true := by
  revert hs
  refine repl_induct (P := fun s r => calm bad s = true → calm bad r = true) h.ne (fun _ => rfl) (fun c s _ ih hs => ?_) (fun s ih hs => ?_) s
  · rw [calm, Bool.and_eq_true] at hs ⊢
    refine ⟨?_, ih hs.2⟩
    rcases Bool.or_eq_true _ _ ▸ hs.1 with h1 | h1
    · simp [h1]
    · simp [after_repl (rep := rep) h h1]
  · exact calm_append hr (ih (calm_suffix hs))

theorem after_mid (h : PatOk pat) (hs : after bad (p ++ pat ++ s) = true) : after bad (p ++ rep ++ s) = true ∨ p = [] := by
  obtain ⟨c, t, rfl, hc⟩ := h.start
  rcases p with _ | ⟨d, p⟩
  · exact .inr rfl
  · left
    simp only [List.cons_append, after] at hs ⊢
    rcases p with _ | ⟨x, p⟩
    · simp only [List.nil_append, List.cons_append, Bool.and_eq_true] at hs
      obtain ⟨h1, h2⟩ := hs
      have hd : (d != '-') = true := by
        by_contra hd
        simp [hd, hc] at h2
      rw [h1, hd]; rfl
    · exact hs

theorem calm_mid (h : PatOk pat) (hr : '#' ∉ rep) (hs : calm bad (p ++ pat ++ s) = true) : calm bad (p ++ rep ++ s) = true := by
  induction p with
  | nil => exact calm_append hr (calm_suffix (a := pat) hs)
  | cons c p ih =>
    simp only [List.cons_append, calm, Bool.and_eq_true] at hs ⊢
    refine ⟨?_, ih hs.2⟩
    rcases Bool.or_eq_true _ _ ▸ hs.1 with h1 | h1
    · simp [h1]
    · rcases after_mid (rep := rep) h h1 with h2 | rfl
      · rw [h2]; simp
      · exfalso
        obtain ⟨d, t, rfl, hd⟩ := h.start
        simp [after, hd] at h1

/-! ## Quiet lines -/

/-- The line stays within a line, without marker, and never becomes a getter, under replacements of `pats`. -/
structure Quiet (pats : List (List Char)) (bad l : List Char) : Prop where
  nl : '\n' ∉ l
  calm : calm bad l = true
  head : Blank l ∨ ∃ q, q <+: l ∧ (∀ pat ∈ pats, Stable pat q) ∧ never q = true

/-- A replacement text: within a line, without `#`. -/
structure RepOk (rep : List Char) : Prop where
  nl : '\n' ∉ rep
  hash : '#' ∉ rep

theorem not_infix_blank (h : PatOk pat) (hb : Blank l) : ¬ pat <:+: l := by
  obtain ⟨c, t, rfl, hc⟩ := h.start
  intro hi
  have := hb c (hi.subset List.mem_cons_self)
  rcases this with rfl | rfl <;> revert hc <;> decide

theorem Quiet.repl (hq : Quiet pats bad l) (hm : pat ∈ pats) (h : PatOk pat) (hr : RepOk rep) : Quiet pats bad (repl pat rep l) where
  nl := fun hx => (mem_repl h.ne hx).elim hq.nl hr.nl
  calm := calm_repl h hr.hash hq.calm
  head := by
    rcases hq.head with hb | ⟨q, ⟨t, rfl⟩, h1, h2⟩
    · left
      rw [repl_none h.ne (not_infix_blank h hb)]
      exact hb
    · right
      exact ⟨q, by rw [repl_stable h.ne (h1 _ hm)]; exact List.prefix_append _ _, h1, h2⟩

theorem Quiet.mid (hq : Quiet pats bad (p ++ pat ++ s)) (hm : pat ∈ pats) (h : PatOk pat) (hr : RepOk rep) : Quiet pats bad (p ++ rep ++ s) where
  nl := by
    have := hq.nl
    simp only [List.mem_append, not_or] at this ⊢
    exact ⟨⟨this.1.1, hr.nl⟩, this.2⟩
  calm := calm_mid h hr.hash hq.calm
  head := by
    rcases hq.head with hb | ⟨q, hx, h1, h2⟩
    · exact absurd ⟨p, s, rfl⟩ (not_infix_blank h hb)
    · right
      refine ⟨q, ?_, h1, h2⟩
      rw [List.append_assoc] at hx ⊢
      rcases List.prefix_or_prefix_of_prefix hx (List.prefix_append p _) with h3 | ⟨u, rfl⟩
      · exact h3.trans (List.prefix_append _ _)
      · rw [List.prefix_append_right_inj] at hx
        rcases u with _ | ⟨c, u⟩
        · simp
        · exfalso
          have h4 := h1 _ hm (c :: u) (List.cons_ne_nil _ _) (List.suffix_append _ _)
          rcases List.prefix_or_prefix_of_prefix hx (List.prefix_append pat s) with h5 | h5
          · exact h4.1 h5
          · exact h4.2 h5

theorem Quiet.not_declares (hq : Quiet pats bad l) (g : Getter) : ¬ Declares l g := by
  rcases hq.head with h | ⟨q, h1, -, h2⟩
  · exact not_declares_blank h g
  · exact Text.not_declares h2 h1 g

theorem Quiet.not_opens (hq : Quiet pats bad l) (robot : List Char) (g : Getter) : ¬ Opens robot l g := by
  rcases hq.head with h | ⟨q, h1, -, h2⟩
  · exact not_opens_blank h robot g
  · exact Text.not_opens h2 h1 robot g

/-! ## Checking the lines of a template -/

def stable (pat p : List Char) : Bool := p.tails.all fun t => t.isEmpty || (!t.isPrefixOf pat && !pat.isPrefixOf t)

theorem stable_spec (h : stable pat p = true) : Stable pat p := by
  intro t ht hs
  rw [stable, List.all_eq_true] at h
  have := h t ((List.mem_tails _ _).2 hs)
  simp only [Bool.or_eq_true, List.isEmpty_iff, ht, false_or, Bool.and_eq_true, Bool.not_eq_true'] at this
  rw [← List.isPrefixOf_iff_prefix, ← List.isPrefixOf_iff_prefix]
  simp [this.1, this.2]

def quiet (pats : List (List Char)) (bad l : List Char) : Bool :=
  !l.contains '\n' && calm bad l &&
    (l.all isBlank || (List.range 30).any fun k => never (l.take k) && pats.all fun pat => stable pat (l.take k))

theorem quiet_spec (h : quiet pats bad l = true) : Quiet pats bad l := by
  simp only [quiet, Bool.and_eq_true, Bool.or_eq_true, Bool.not_eq_true', List.any_eq_true, List.all_eq_true (l := pats)] at h
  obtain ⟨⟨h1, h2⟩, h3⟩ := h
  refine ⟨by simpa using h1, h2, ?_⟩
  rcases h3 with h3 | ⟨k, -, h3, h4⟩
  · exact .inl (blank_iff.2 h3)
  · exact .inr ⟨_, List.take_prefix _ _, fun pat hp => stable_spec (h4 pat hp), h3⟩

end Thunder.Text
