import Verif.Lemmas.Header
import Verif.Lemmas.Generate

/-!
# The lines of the header and of the source of the generated class
-/

open scoped Classical

namespace Thunder.Text

open Spec

variable {dst l p pat rep s x : List Char} {i : Info} {fs : List FunObj}

/-! ## Occurrences -/

theorem infix_sep {c : Char} (hc : c ∉ pat) {a b : List Char} (h : pat <:+: a ++ c :: b) : pat <:+: a ∨ pat <:+: b := by
  have hpre : ∀ {a : List Char}, pat <+: a ++ c :: b → pat <+: a := by
    intro a h
    rcases List.prefix_or_prefix_of_prefix h (List.prefix_append a (c :: b)) with h1 | ⟨t, rfl⟩
    · exact h1
    · rw [List.prefix_append_right_inj] at h
      rcases t with _ | ⟨d, t⟩
      · rw [List.append_nil]
      · obtain ⟨e, -⟩ := List.cons_prefix_cons.1 h
        exact absurd (by simp [e]) hc
  induction a with
  | nil =>
    rcases List.infix_cons_iff.1 h with h | h
    · exact .inl (hpre (a := []) h).isInfix
    · exact .inr h
  | cons y a ih =>
    rw [List.cons_append] at h
    rcases List.infix_cons_iff.1 h with h | h
    · exact .inl (hpre (a := y :: a) h).isInfix
    · exact (ih h).imp (fun h => h.trans (List.suffix_cons y a).isInfix) id

theorem stable_of_last {c : Char} (hc : c ∉ pat) (h : ¬ pat <:+: p ++ [c]) : Stable pat (p ++ [c]) := by
  intro t ht hs
  refine ⟨fun hp => hc ?_, fun hp => h (hp.isInfix.trans hs.isInfix)⟩
  have : t.getLast ht = c := by
    obtain ⟨u, e⟩ := hs
    have := List.getLast_append_of_ne_nil (l := u) (l' := t) (by simp [ht]) ht
    rw [← this]
    simp [e]
  exact hp.subset (this ▸ List.getLast_mem ht)

theorem replaceFirst_here (h : Stable pat p) : replaceFirst (p ++ (pat ++ s)) pat rep = some (p ++ (rep ++ s)) := by
  have e1 : List.take p.length (p ++ pat ++ s) = p := by rw [List.append_assoc, List.take_left]
  have e2 : List.drop (p.length + pat.length) (p ++ pat ++ s) = s := by rw [← List.length_append, List.drop_left]
  rw [← List.append_assoc, replaceFirst, find_stable h, Option.map_some, e1, e2, List.append_assoc]

/-- Behind a stable prefix the replacement is made in the text that has an occurrence. -/
theorem replaceFirst_inner (h : Stable pat p) (hx : pat <:+: x) :
    ∃ x', replaceFirst x pat rep = some x' ∧ replaceFirst (p ++ (x ++ s)) pat rep = some (p ++ (x' ++ s)) := by
  obtain ⟨j, hj⟩ : ∃ j, find x pat 0 = some j := by
    rcases hf : find x pat 0 with _ | f
    · obtain ⟨u, v, rfl⟩ := hx
      exact absurd ⟨v, by simp⟩ (find_none hf u.length (Nat.zero_le _) (by simp))
    · exact ⟨f, rfl⟩
  obtain ⟨-, h2, h3, h4⟩ := find_some hj
  have hle : j + pat.length ≤ x.length := by
    have := h3.length_le
    rw [List.length_drop] at this
    omega
  have hd : ∀ k ≤ x.length, (p ++ (x ++ s)).drop (p.length + k) = x.drop k ++ s := by
    intro k hk
    rw [← List.drop_drop, List.drop_left, List.drop_append_of_le_length hk]
  have hf : find (p ++ (x ++ s)) pat 0 = some (p.length + j) := by
    rcases hf : find (p ++ (x ++ s)) pat 0 with _ | f
    · refine absurd ?_ (find_none hf (p.length + j) (Nat.zero_le _) (by simp; omega))
      rw [hd j h2]
      exact h3.trans (List.prefix_append _ _)
    · obtain ⟨-, g2, g3, g4⟩ := find_some hf
      rcases Nat.lt_trichotomy f (p.length + j) with hlt | rfl | hgt
      · exfalso
        by_cases hp : f < p.length
        · rw [List.drop_append_of_le_length hp.le] at g3
          exact h.not_prefix (by simpa using hp) (List.drop_suffix _ _) g3
        · obtain ⟨k, rfl⟩ := Nat.exists_eq_add_of_le (not_lt.1 hp)
          have hk : k < j := by omega
          rw [hd k (by omega)] at g3
          refine h4 k (Nat.zero_le _) hk (List.prefix_of_prefix_length_le g3 (List.prefix_append _ _) ?_)
          rw [List.length_drop]
          omega
      · rfl
      · refine absurd ?_ (g4 (p.length + j) (Nat.zero_le _) hgt)
        rw [hd j h2]
        exact h3.trans (List.prefix_append _ _)
  refine ⟨x.take j ++ rep ++ x.drop (j + pat.length), by rw [replaceFirst, hj]; rfl, ?_⟩
  rw [replaceFirst, hf, Option.map_some, Nat.add_assoc, hd _ hle, List.take_append, List.take_of_length_le (by omega), Nat.add_sub_cancel_left,
    List.take_append_of_le_length h2]
  simp only [List.append_assoc]

/-! ## The guard -/

theorem guard_chars : '_' ∉ patGuard ∧ ' ' ∉ patGuard := by decide

theorem stable_ifndef : Stable patGuard (ch "#ifndef ") := stable_spec (by decide +kernel)
theorem stable_ifndef' : Stable patGuard (ch "#ifndef THUNDER_") := stable_spec (by decide +kernel)

theorem stable_guard (h : ¬ patGuard <:+: dst) : Stable patGuard (ch "#ifndef THUNDER_" ++ (dst ++ ch "_H\n#define ")) := by
  have e : ch "#ifndef THUNDER_" ++ (dst ++ ch "_H\n#define ") = (ch "#ifndef THUNDER" ++ '_' :: (dst ++ '_' :: ch "H\n#define")) ++ [' '] := by
    have e1 : ch "#ifndef THUNDER_" = ch "#ifndef THUNDER" ++ ['_'] := by decide +kernel
    have e2 : ch "_H\n#define " = '_' :: ch "H\n#define" ++ [' '] := by decide +kernel
    rw [e1, e2]
    simp only [List.append_assoc, List.cons_append, List.nil_append]
  rw [e]
  refine stable_of_last guard_chars.2 fun h' => ?_
  rcases infix_sep (b := []) guard_chars.2 h' with h' | h'
  · rcases infix_sep guard_chars.1 h' with h' | h'
    · exact not_occurs (by decide +kernel) h'
    · rcases infix_sep guard_chars.1 h' with h' | h'
      · exact h h'
      · exact not_occurs (by decide +kernel) h'
  · exact absurd h'.length_le (by decide)

theorem headerFile_eq : headerFile = ch "#ifndef " ++ (patGuard ++ (ch "_H\n#define " ++ (patGuard ++ (ch "_H\n" ++ unlines (headerChars.drop 2))))) := by
  have h : headerChars = [ch "#ifndef " ++ patGuard ++ ch "_H", ch "#define " ++ patGuard ++ ch "_H"] ++ headerChars.drop 2 := by decide +kernel
  have h' : headerChars.drop 2 ≠ [] := by decide +kernel
  have e1 : ch "_H\n#define " = ch "_H" ++ '\n' :: ch "#define " := by decide +kernel
  have e2 : ch "_H\n" = ch "_H" ++ ['\n'] := by decide +kernel
  rw [headerFile, headerLines_eq]
  generalize headerChars.drop 2 = L at h h'
  rw [h, List.cons_append, List.cons_append, List.nil_append, unlines, unlines_cons' (by simp), unlines_cons' h', ← unlines, e1, e2]
  simp only [List.append_assoc, List.cons_append, List.nil_append]

theorem unlines_guard (g₁ g₂ : List Char) : unlines ((ch "#ifndef " ++ g₁) :: (ch "#define " ++ g₂) :: headerChars.drop 2) =
    ch "#ifndef " ++ (g₁ ++ '\n' :: (ch "#define " ++ (g₂ ++ '\n' :: unlines (headerChars.drop 2)))) := by
  have h' : headerChars.drop 2 ≠ [] := by decide +kernel
  generalize headerChars.drop 2 = L at h'
  rw [unlines, unlines_cons' (by simp), unlines_cons' h', ← unlines]
  simp only [List.append_assoc]

/-- The two replacements of the guard: the names are the same unless the name of the robot contains the pattern. -/
theorem guard_text (hd : RepOk dst) : ∃ t₁ g₁ g₂, replaceFirst headerFile patGuard (ch "THUNDER_" ++ dst) = some t₁ ∧
    replaceFirst t₁ patGuard (ch "THUNDER_" ++ dst) = some (unlines ((ch "#ifndef " ++ g₁) :: (ch "#define " ++ g₂) :: headerChars.drop 2)) ∧
    RepOk g₁ ∧ RepOk g₂ ∧ (¬ patGuard <:+: dst → g₁ = ch "THUNDER_" ++ dst ++ ch "_H" ∧ g₂ = g₁) ∧
    (patGuard <:+: dst → ch "THUNDER_" <+: g₁ ∧ g₂ = patGuard ++ ch "_H") := by
  have hT : RepOk (ch "THUNDER_") := ⟨by decide +kernel, by decide +kernel⟩
  have hH : RepOk (ch "_H") := ⟨by decide +kernel, by decide +kernel⟩
  have e0 : ch "#ifndef THUNDER_" = ch "#ifndef " ++ ch "THUNDER_" := by decide +kernel
  have e1 : ch "_H\n#define " = ch "_H" ++ '\n' :: ch "#define " := by decide +kernel
  have e2 : ch "_H\n" = ch "_H" ++ ['\n'] := by decide +kernel
  rw [headerFile_eq]
  by_cases h : patGuard <:+: dst
  · obtain ⟨x', h1, h2⟩ := replaceFirst_inner (rep := ch "THUNDER_" ++ dst)
      (s := ch "_H\n#define " ++ (patGuard ++ (ch "_H\n" ++ unlines (headerChars.drop 2)))) stable_ifndef' h
    refine ⟨_, ch "THUNDER_" ++ x' ++ ch "_H", patGuard ++ ch "_H", replaceFirst_here stable_ifndef, ?_, ?_, ⟨by decide +kernel, by decide +kernel⟩,
      fun h' => absurd h h', fun _ => ⟨by rw [List.append_assoc]; exact List.prefix_append _ _, rfl⟩⟩
    · rw [unlines_guard]
      refine Eq.trans ?_ (h2.trans ?_)
      · rw [e0]; simp only [List.append_assoc]
      · rw [e0, e1, e2]; simp only [List.append_assoc, List.cons_append, List.nil_append]
    · obtain ⟨u, v, e3, e4⟩ := replaceFirst_occ h1
      refine repOk_append (repOk_append hT ?_) hH
      have hu : ∀ c, c ∈ u ∨ c ∈ v → c ∈ dst := by intro c hc; rw [e3]; simp only [List.mem_append]; tauto
      have hc : ∀ c, c ∉ dst → c ∉ ch "THUNDER_" → c ∉ x' := by
        intro c h1 h2 h3
        rw [e4] at h3
        simp only [List.mem_append] at h3
        rcases h3 with (h3 | h3 | h3) | h3
        · exact h1 (hu c (.inl h3))
        · exact h2 h3
        · exact h1 h3
        · exact h1 (hu c (.inr h3))
      exact ⟨hc _ hd.nl hT.nl, hc _ hd.hash hT.hash⟩
  · refine ⟨_, ch "THUNDER_" ++ dst ++ ch "_H", ch "THUNDER_" ++ dst ++ ch "_H", replaceFirst_here stable_ifndef, ?_, repOk_append (repOk_append hT hd) hH,
      repOk_append (repOk_append hT hd) hH, fun _ => ⟨rfl, rfl⟩, fun h' => absurd h' h⟩
    rw [unlines_guard]
    refine Eq.trans ?_ ((replaceFirst_here (rep := ch "THUNDER_" ++ dst) (s := ch "_H\n" ++ unlines (headerChars.drop 2)) (stable_guard h)).trans ?_)
    · rw [e0]; simp only [List.append_assoc]
    · rw [e0, e1, e2]; simp only [List.append_assoc, List.cons_append, List.nil_append]

/-! ## The header -/

theorem header_run {e t₁ t₂ : List Char} (h1 : replaceFirst headerFile patGuard (ch "THUNDER_" ++ dst) = some t₁)
    (h2 : replaceFirst t₁ patGuard (ch "THUNDER_" ++ dst) = some t₂) (he : elasticText i.isEla i.n = some e) :
    Header (ch "robot") dst i fs headerFile (.ok (fills (headerFill dst i e fs) t₂)) := by
  have hA : ReplaceSeq (headerSubst (ch "robot") dst i) t₂ (some (fills (headerSubst (ch "robot") dst i) t₂)) := by
    refine (replaceSeq_iff ?_).2 rfl
    intro q hq
    rw [headerSubst, patRobot_eq, patName_eq, patN_eq, patEla_eq, patNe_eq, patK_eq, patD_eq, patDl_eq, patDm_eq] at hq
    simp only [List.mem_cons, List.not_mem_nil, or_false] at hq
    rcases hq with rfl | rfl | rfl | rfl | rfl | rfl | rfl | rfl | rfl <;> exact List.cons_ne_nil _ _
  have hB : ReplaceSeq [(ch "/*#-isElasticJoint-#*/", e), (ch "/*#-FUNCTIONS_H-#*/", headerFuns fs)] (fills (headerSubst (ch "robot") dst i) t₂)
      (some (fills (headerFill dst i e fs) t₂)) := by
    refine (replaceSeq_iff ?_).2 ?_
    · intro q hq
      rw [patIs_eq, patH_eq] at hq
      simp only [List.mem_cons, List.not_mem_nil, or_false] at hq
      rcases hq with rfl | rfl <;> exact List.cons_ne_nil _ _
    · have : headerFill dst i e fs = headerSubst (ch "robot") dst i ++ [(ch "/*#-isElasticJoint-#*/", e), (ch "/*#-FUNCTIONS_H-#*/", headerFuns fs)] := by
        rw [headerSubst, patRobot_eq, patName_eq, patN_eq, patEla_eq, patNe_eq, patK_eq, patD_eq, patDl_eq, patDm_eq, patIs_eq, patH_eq]
        rfl
      rw [this, fills_append]
      rfl
  exact .ok (by rw [patGuard_eq]; exact h1) (by rw [patGuard_eq]; exact h2) hA he hB

theorem spread_directive {e : List Char} {d g : List Char} (hs : ∀ q ∈ fillPats, stable q d = true) (hn : '\n' ∉ d) (hg : RepOk g) (hd : RepOk dst) :
    spread dst i e fs (d ++ g) = [d ++ repl patRobot dst g] := by
  rw [spread, fills_stable fun q hq => ⟨(fillPats_ok _ (mem_fillPats hq)).1, stable_spec (hs _ (mem_fillPats hq))⟩, fill_robot hg.hash hd.hash, textLines_line]
  intro h
  rcases List.mem_append.1 h with h | h
  · exact hn h
  · exact (mem_repl (by decide) h).elim hg.nl hd.nl

theorem nl_headerChars : ∀ l ∈ headerChars, '\n' ∉ l := by decide +kernel

/-- The lines of the header. -/
theorem header_text (hd : RepOk dst) (hi : InfoOk i) {hdr : List Char} (h : ∀ o, Header (ch "robot") dst i fs headerFile o ↔ o = .ok hdr) :
    ∃ e g₁ g₂, elasticText i.isEla i.n = some e ∧ textLines hdr = (ch "#ifndef " ++ repl patRobot dst g₁) :: (ch "#define " ++ repl patRobot dst g₂) ::
        (headerChars.drop 2).flatMap (spread dst i e fs) ∧ RepOk g₁ ∧ RepOk g₂ ∧
      (¬ patGuard <:+: dst → g₁ = ch "THUNDER_" ++ dst ++ ch "_H" ∧ g₂ = g₁) ∧ (patGuard <:+: dst → ch "THUNDER_" <+: g₁ ∧ g₂ = patGuard ++ ch "_H") := by
  obtain ⟨e, he, -⟩ := elastic_ok hi
  obtain ⟨t₁, g₁, g₂, h1, h2, hg1, hg2, h3, h4⟩ := guard_text hd
  refine ⟨e, g₁, g₂, he, ?_, hg1, hg2, h3, h4⟩
  have hrun := TextRes.ok.inj ((h _).1 (header_run (fs := fs) h1 h2 he))
  rw [← hrun, textLines_fills fun p hp => fillPats_ok _ (mem_fillPats hp), textLines_unlines ?_ (by simp)]
  · rw [List.flatMap_cons, List.flatMap_cons]
    have e1 : textLines (fills (headerFill dst i e fs) (ch "#ifndef " ++ g₁)) = [ch "#ifndef " ++ repl patRobot dst g₁] :=
      spread_directive (by decide +kernel) (by decide +kernel) hg1 hd
    have e2 : textLines (fills (headerFill dst i e fs) (ch "#define " ++ g₂)) = [ch "#define " ++ repl patRobot dst g₂] :=
      spread_directive (by decide +kernel) (by decide +kernel) hg2 hd
    rw [e1, e2]
    rfl
  · intro l hl
    rcases List.mem_cons.1 hl with rfl | hl
    · intro h
      rcases List.mem_append.1 h with h | h
      · revert h; decide +kernel
      · exact hg1.nl h
    · rcases List.mem_cons.1 hl with rfl | hl
      · intro h
        rcases List.mem_append.1 h with h | h
        · revert h; decide +kernel
        · exact hg2.nl h
      · exact nl_headerChars l (List.mem_of_mem_drop hl)

theorem guard_prefix {g : List Char} (h : ch "THUNDER_" <+: g) : ch "THUNDER_" <+: repl patRobot dst g := by
  obtain ⟨s, rfl⟩ := h
  rw [repl_stable (by decide) (stable_spec (by decide +kernel))]
  exact List.prefix_append _ _

/-- The constants, the guard and the class of the header. -/
theorem header_lines_ok (hd : RepOk dst) (hs : ' ' ∉ dst) (hi : InfoOk i) (hf : ∀ f ∈ fs, FunOk f) {hdr : List Char}
    (h : ∀ o, Header (ch "robot") dst i fs headerFile o ↔ o = .ok hdr) :
    Constants (textLines hdr) (constsOf dst i) ∧ (Guarded (textLines hdr) ↔ ¬ patGuard <:+: dst) ∧ ch "class thunder_" ++ dst ++ ch "{" ∈ textLines hdr := by
  obtain ⟨e, g₁, g₂, he, ht, hg1, hg2, h3, h4⟩ := header_text hd hi h
  rw [ht]
  refine ⟨.skip (fun k => not_const (q := ch "#ifndef ") (by decide +kernel) (List.prefix_append _ _) k)
    (.skip (fun k => not_const (q := ch "#define ") (by decide +kernel) (List.prefix_append _ _) k) (constants_body hd hs hi hf he)), ⟨?_, fun hg => ?_⟩, ?_⟩
  · rintro ⟨G, mid, e1⟩ hg
    obtain ⟨h5, rfl⟩ := h4 hg
    obtain ⟨e2, e3⟩ := List.cons.inj e1
    obtain ⟨e3, -⟩ := List.cons.inj e3
    have e2 := List.append_cancel_left e2
    have e3 := List.append_cancel_left e3
    have h6 := guard_prefix (dst := dst) h5
    rw [e2, ← e3, repl_none (by decide) (not_occurs (by decide +kernel))] at h6
    revert h6
    have : (ch "THUNDER_").isPrefixOf (patGuard ++ ch "_H") = false := by decide +kernel
    intro h6
    rw [List.isPrefixOf_iff_prefix.2 h6] at this
    cases this
  · obtain ⟨-, e0⟩ := h3 hg
    rw [e0]
    have e1 : headerChars.drop 2 = (headerChars.drop 2).dropLast ++ [ch "#endif"] := by decide +kernel
    refine ⟨repl patRobot dst g₁, (headerChars.drop 2).dropLast.flatMap (spread dst i e fs), ?_⟩
    have e2 : (headerChars.drop 2).flatMap (spread dst i e fs) = (headerChars.drop 2).dropLast.flatMap (spread dst i e fs) ++ [ch "#endif"] := by
      have h7 : spread dst i e fs (ch "#endif") = [ch "#endif"] := still_line (by decide +kernel) (by decide +kernel)
      have h8 := congrArg (List.flatMap (spread dst i e fs)) e1
      rwa [List.flatMap_append, List.flatMap_singleton, h7] at h8
    rw [e2]
  · have hm : ch "class thunder_" ++ (patRobot ++ ch "{") ∈ headerChars.drop 2 := by decide +kernel
    refine List.mem_cons_of_mem _ (List.mem_cons_of_mem _ (List.mem_flatMap.2 ⟨_, hm, ?_⟩))
    rw [spread, fill_robot (by decide +kernel) hd.hash, repl_stable (by decide) (stable_spec (by decide +kernel)), repl_pat (by decide),
      repl_none (by decide) (not_occurs (by decide +kernel)), textLines_line, List.append_assoc]
    · exact List.mem_cons_self
    · simp only [List.mem_append, not_or]
      exact ⟨by decide +kernel, hd.nl, by decide +kernel⟩

/-! ## The source -/

/-- The replacements of the source, in order. -/
def sourceFill (dst : List Char) (fun_ : List Char) (py : Option (List Char)) : List (List Char × List Char) :=
  match py with
  | none => [(patRobot, dst), (patCpp, fun_)]
  | some b => [(patBind, bindingText), (patIncl, bindingImport), (patRobot, dst), (patCpp, fun_), (patPy, b)]

theorem source_run {py : Bool} {src : List Char} (h : ∀ o, Source (ch "robot") dst i fs py sourceFile o ↔ o = .ok src) (hp : py = true → fs ≠ []) :
    ∃ b, b.isSome = py ∧ src = fills (sourceFill dst (sourceFuns i.robotName dst fs) b) sourceFile := by
  have hmid : ∀ t, ReplaceSeq [(ch "robot", dst), (ch "/*#-FUNCTIONS_CPP-#*/", sourceFuns i.robotName dst fs)] t
      (some (fills [(patRobot, dst), (patCpp, sourceFuns i.robotName dst fs)] t)) := by
    intro t
    rw [patRobot_eq, patCpp_eq]
    refine (replaceSeq_iff ?_).2 rfl
    intro q hq
    simp only [List.mem_cons, List.not_mem_nil, or_false] at hq
    rcases hq with rfl | rfl <;> exact List.cons_ne_nil _ _
  cases py with
  | false =>
    refine ⟨none, rfl, ?_⟩
    have := (h _).1 (.ok (py := false) (t₁ := sourceFile) .nil (hmid _) rfl)
    injection this with this
    exact this.symm
  | true =>
    obtain ⟨b, hb⟩ : ∃ b, bindingFuns dst fs = some b := ⟨_, bindingFuns_eq (hp rfl)⟩
    refine ⟨some b, rfl, ?_⟩
    have h1 : ReplaceSeq (if true then bindingSubst else []) sourceFile (some (fills [(patBind, bindingText), (patIncl, bindingImport)] sourceFile)) := by
      rw [if_pos rfl, bindingSubst, patBind_eq, patIncl_eq]
      refine (replaceSeq_iff ?_).2 rfl
      intro q hq
      simp only [List.mem_cons, List.not_mem_nil, or_false] at hq
      rcases hq with rfl | rfl <;> exact List.cons_ne_nil _ _
    have h3 : ∀ t, ReplaceSeq [(ch "/*#-GENERATED_PYTHON_BINDINGS-#*/", b)] t (some (fills [(patPy, b)] t)) := by
      intro t
      rw [patPy_eq]
      refine (replaceSeq_iff ?_).2 rfl
      intro q hq
      simp only [List.mem_cons, List.not_mem_nil, or_false] at hq
      rcases hq with rfl
      exact List.cons_ne_nil _ _
    have := (h _).1 (.okPy h1 (hmid _) rfl hb (h3 _))
    injection this with this
    rw [← this, ← fills_append, ← fills_append]
    rfl

/-- The patterns of the source. -/
def sourceFillPats : List (List Char) := [patBind, patIncl, patRobot, patCpp, patPy]

theorem mem_sourceFill {f : List Char} {b : Option (List Char)} {q : List Char × List Char} (h : q ∈ sourceFill dst f b) : q.1 ∈ sourceFillPats := by
  cases b with
  | none =>
    simp only [sourceFill, List.mem_cons, List.not_mem_nil, or_false] at h
    rcases h with rfl | rfl <;> simp [sourceFillPats]
  | some b =>
    simp only [sourceFill, List.mem_cons, List.not_mem_nil, or_false] at h
    rcases h with rfl | rfl | rfl | rfl | rfl <;> simp [sourceFillPats]

theorem sourceFillPats_ok : ∀ q ∈ sourceFillPats, q ≠ [] ∧ '\n' ∉ q := by decide +kernel

/-- A text without `#` in which neither the place of the bindings nor that of the includes occurs. -/
theorem source_robot {f : List Char} {b : Option (List Char)} (hl : '#' ∉ l) (hp : ¬ patIncl <:+: l) (hd : '#' ∉ dst) :
    fills (sourceFill dst f b) l = repl patRobot dst l := by
  have hr : '#' ∉ repl patRobot dst l := fun h => (mem_repl (by decide) h).elim hl hd
  cases b with
  | none =>
    show fills [(patCpp, f)] (repl patRobot dst l) = _
    refine fills_hash (fun q hq => ?_) hr
    rw [List.mem_singleton.1 hq]
    show '#' ∈ patCpp
    decide
  | some b =>
    have h1 : fills [(patBind, bindingText), (patIncl, bindingImport)] l = l := by
      refine fills_still fun q hq => ?_
      simp only [List.mem_cons, List.not_mem_nil, or_false] at hq
      rcases hq with rfl | rfl
      · refine ⟨List.cons_ne_nil _ _, fun h => hl (h.subset ?_)⟩
        show '#' ∈ patBind
        decide
      · exact ⟨List.cons_ne_nil _ _, hp⟩
    show fills ([(patBind, bindingText), (patIncl, bindingImport)] ++ [(patRobot, dst), (patCpp, f), (patPy, b)]) l = _
    rw [fills_append, h1]
    show fills [(patCpp, f), (patPy, b)] (repl patRobot dst l) = _
    refine fills_hash (fun q hq => ?_) hr
    simp only [List.mem_cons, List.not_mem_nil, or_false] at hq
    rcases hq with rfl | rfl
    · show '#' ∈ patCpp; decide
    · show '#' ∈ patPy; decide

theorem include_line {f : List Char} {b : Option (List Char)} {x y : List Char} (hd : RepOk dst) (hs : ∀ q ∈ sourceFillPats, stable q x = true)
    (hx : '\n' ∉ x) (hy : RepOk y) (hp : occurs patIncl (patRobot ++ y) = false) (ho : occurs patRobot y = false) :
    textLines (fills (sourceFill dst f b) (x ++ (patRobot ++ y))) = [x ++ (dst ++ y)] := by
  have hr : '#' ∉ patRobot := by decide
  rw [fills_stable fun q hq => ⟨(sourceFillPats_ok _ (mem_sourceFill hq)).1, stable_spec (hs _ (mem_sourceFill hq))⟩,
    source_robot (by rw [List.mem_append]; exact fun h => h.elim hr hy.hash) (not_occurs hp) hd.hash, repl_pat (by decide), repl_none (by decide) (not_occurs ho),
    textLines_line]
  simp only [List.mem_append, not_or]
  exact ⟨hx, hd.nl, hy.nl⟩

theorem join_lit {a b c d e f g : List Char} (h1 : a = b ++ c) (h2 : d = e ++ f) : b ++ (c ++ g ++ e) ++ f = a ++ (g ++ d) := by
  subst h1 h2
  simp only [List.append_assoc]

theorem nl_sourceChars : ∀ l ∈ sourceChars, '\n' ∉ l := by decide +kernel

theorem sourceChars_head : sourceChars = (ch "#include \"thunder_" ++ (patRobot ++ ch ".h\"")) :: (ch "#include \"" ++ (patRobot ++ ch "_gen.h\"")) :: sourceChars.drop 2 := by
  decide +kernel

/-- The first two lines of the source and, with bindings, the head of the Python module. -/
theorem source_lines_ok (hd : RepOk dst) {py : Bool} {src : List Char} (h : ∀ o, Source (ch "robot") dst i fs py sourceFile o ↔ o = .ok src)
    (hp : py = true → fs ≠ []) :
    (∃ mid, textLines src = includes (ch "thunder_" ++ dst ++ ch ".h") :: includes (dst ++ ch "_gen.h") :: mid) ∧
      (py = true → moduleHead (ch "thunder_" ++ dst ++ ch "_py") ∈ textLines src) := by
  obtain ⟨b, hb, e⟩ := source_run h hp
  have ht : textLines src = sourceChars.flatMap fun l => textLines (fills (sourceFill dst (sourceFuns i.robotName dst fs) b) l) := by
    rw [e, textLines_fills fun q hq => sourceFillPats_ok _ (mem_sourceFill hq), sourceFile, sourceLines_eq, textLines_unlines nl_sourceChars (by decide +kernel)]
  refine ⟨?_, fun hpy => ?_⟩
  · refine ⟨(sourceChars.drop 2).flatMap fun l => textLines (fills (sourceFill dst (sourceFuns i.robotName dst fs) b) l), ?_⟩
    have h1 : textLines (fills (sourceFill dst (sourceFuns i.robotName dst fs) b) (ch "#include \"thunder_" ++ (patRobot ++ ch ".h\""))) = _ :=
      include_line hd (by decide +kernel) (by decide +kernel) ⟨by decide +kernel, by decide +kernel⟩ (by decide +kernel) (by decide +kernel)
    have h2 : textLines (fills (sourceFill dst (sourceFuns i.robotName dst fs) b) (ch "#include \"" ++ (patRobot ++ ch "_gen.h\""))) = _ :=
      include_line hd (by decide +kernel) (by decide +kernel) ⟨by decide +kernel, by decide +kernel⟩ (by decide +kernel) (by decide +kernel)
    have e1 : includes (ch "thunder_" ++ dst ++ ch ".h") = ch "#include \"thunder_" ++ (dst ++ ch ".h\"") := join_lit (by decide +kernel) (by decide +kernel)
    have e2 : includes (dst ++ ch "_gen.h") = ch "#include \"" ++ (dst ++ ch "_gen.h\"") := join_lit (c := []) (by decide +kernel) (by decide +kernel)
    have h3 := congrArg (List.flatMap fun l => textLines (fills (sourceFill dst (sourceFuns i.robotName dst fs) b) l)) sourceChars_head
    rw [List.flatMap_cons, List.flatMap_cons] at h3
    rw [h1, h2] at h3
    rw [ht, e1, e2]
    exact h3
  · obtain ⟨b, rfl⟩ : ∃ b', b = some b' := by rw [hpy] at hb; exact Option.isSome_iff_exists.1 hb
    have hm : patBind ∈ sourceChars := by decide +kernel
    rw [ht]
    refine List.mem_flatMap.2 ⟨patBind, hm, ?_⟩
    have e1 : fills (sourceFill dst (sourceFuns i.robotName dst fs) (some b)) patBind =
        fills [(patIncl, bindingImport), (patRobot, dst), (patCpp, sourceFuns i.robotName dst fs), (patPy, b)] bindingText := by
      have := repl_pat (pat := patBind) (rep := bindingText) (s := []) (by decide)
      rw [List.append_nil, repl_nil (by decide), List.append_nil] at this
      rw [sourceFill, fills_cons]
      dsimp only
      rw [this]
    have hl : ch "PYBIND11_MODULE(thunder_" ++ (patRobot ++ ch "_py, m) {") ∈ bindingChars := by decide +kernel
    have e2 : fills [(patIncl, bindingImport), (patRobot, dst), (patCpp, sourceFuns i.robotName dst fs), (patPy, b)]
        (ch "PYBIND11_MODULE(thunder_" ++ (patRobot ++ ch "_py, m) {")) = ch "PYBIND11_MODULE(thunder_" ++ (dst ++ ch "_py, m) {") := by
      have h1 : repl patBind bindingText (ch "PYBIND11_MODULE(thunder_" ++ (patRobot ++ ch "_py, m) {")) = _ := repl_none (by decide) (not_occurs (by decide +kernel))
      have h2 := source_robot (dst := dst) (f := sourceFuns i.robotName dst fs) (b := some b) (l := ch "PYBIND11_MODULE(thunder_" ++ (patRobot ++ ch "_py, m) {"))
        (by decide +kernel) (not_occurs (by decide +kernel)) hd.hash
      rw [sourceFill, fills_cons] at h2
      dsimp only at h2
      rw [h1] at h2
      rw [h2, repl_stable (by decide) (stable_spec (by decide +kernel)), repl_pat (by decide), repl_none (by decide) (not_occurs (by decide +kernel))]
    rw [e1, textLines_fills fun q hq => sourceFillPats_ok _ (mem_sourceFill (dst := dst) (f := sourceFuns i.robotName dst fs) (b := some b)
      (List.mem_cons_of_mem _ hq)), bindingText, bindingLines_eq, textLines_unlines (by decide +kernel) (by decide +kernel)]
    refine List.mem_flatMap.2 ⟨_, hl, ?_⟩
    have e3 : moduleHead (ch "thunder_" ++ dst ++ ch "_py") = ch "PYBIND11_MODULE(thunder_" ++ (dst ++ ch "_py, m) {") :=
      join_lit (by decide +kernel) (by decide +kernel)
    rw [e2, textLines_line, e3]
    · exact List.mem_cons_self
    · simp only [List.mem_append, not_or]
      exact ⟨by decide +kernel, hd.nl, by decide +kernel⟩

/-! ## The build file -/

theorem cmake_lines : ∃ A B C : List String, cmakeLines = A ++ "pybind11_add_module(thunder_robot_py thunder_robot.cpp robot_gen.cpp)" :: B ++
    "target_link_libraries(thunder_robot_py PRIVATE yaml-cpp::yaml-cpp pybind11::module Eigen3::Eigen)" :: C :=
  ⟨cmakeLines.take 21, [""], [], rfl⟩

theorem nl_cmake : ∀ l ∈ cmakeLines.map ch, '\n' ∉ l := by decide +kernel

theorem cmake_mem {t' : List Char} (h : Replaced (ch "robot") dst cmakeFile t') {l : String} (hl : l ∈ cmakeLines) (hd : '\n' ∉ dst) :
    repl patRobot dst (ch l) ∈ textLines t' := by
  rw [patRobot_eq] at h
  have hne : patRobot ≠ [] := by decide
  rw [← repl_eq hne h, textLines_repl hne (by decide), cmakeFile, textLines_unlines nl_cmake (by decide)]
  refine List.mem_flatMap.2 ⟨ch l, List.mem_map.2 ⟨l, hl, rfl⟩, ?_⟩
  rw [textLines_line]
  · exact List.mem_cons_self
  · exact fun hx => (mem_repl hne hx).elim (nl_cmake _ (List.mem_map.2 ⟨l, hl, rfl⟩)) hd

theorem repl_piece {a b : List Char} (ha : stable patRobot a = true) : repl patRobot dst (a ++ (patRobot ++ b)) = a ++ (dst ++ repl patRobot dst b) := by
  rw [repl_stable (by decide) (stable_spec ha), repl_pat (by decide)]

/-- The lines of the build file for the module. -/
theorem cmake_ok {t' : List Char} (h : Replaced (ch "robot") dst cmakeFile t') (hd : '\n' ∉ dst) :
    moduleLine (ch "thunder_" ++ dst ++ ch "_py") [ch "thunder_" ++ dst ++ ch ".cpp", dst ++ ch "_gen.cpp"] ∈ textLines t' ∧
      linkLine (ch "thunder_" ++ dst ++ ch "_py") (ch "yaml-cpp::yaml-cpp pybind11::module Eigen3::Eigen") ∈ textLines t' := by
  obtain ⟨A, B, C, hABC⟩ := cmake_lines
  constructor
  · have h1 := cmake_mem h (l := "pybind11_add_module(thunder_robot_py thunder_robot.cpp robot_gen.cpp)") (by rw [hABC]; simp) hd
    have e1 : ch "pybind11_add_module(thunder_robot_py thunder_robot.cpp robot_gen.cpp)" = ch "pybind11_add_module(thunder_" ++ (patRobot ++
        (ch "_py thunder_" ++ (patRobot ++ (ch ".cpp " ++ (patRobot ++ ch "_gen.cpp)"))))) := by decide +kernel
    have e2 : repl patRobot dst (ch "pybind11_add_module(thunder_robot_py thunder_robot.cpp robot_gen.cpp)") = ch "pybind11_add_module(thunder_" ++ (dst ++
        (ch "_py thunder_" ++ (dst ++ (ch ".cpp " ++ (dst ++ ch "_gen.cpp)"))))) := by
      rw [e1, repl_piece (by decide +kernel), repl_piece (by decide +kernel), repl_piece (by decide +kernel), repl_none (by decide) (not_occurs (by decide +kernel))]
    have e3 : ∀ {a b c d e f g a' b' c' d' : List Char}, a' = a ++ b → b' = c ++ (d ++ b) → c' = e ++ d → d' = f ++ g →
        a ++ (b ++ dst ++ c) ++ [b ++ dst ++ e, dst ++ f].flatMap (d ++ ·) ++ g = a' ++ (dst ++ (b' ++ (dst ++ (c' ++ (dst ++ d'))))) := by
      rintro a b c d e f g a' b' c' d' rfl rfl rfl rfl
      simp
    rw [e2] at h1
    have e4 : moduleLine (ch "thunder_" ++ dst ++ ch "_py") [ch "thunder_" ++ dst ++ ch ".cpp", dst ++ ch "_gen.cpp"] = _ :=
      e3 (a' := ch "pybind11_add_module(thunder_") (b' := ch "_py thunder_") (c' := ch ".cpp ") (d' := ch "_gen.cpp)") (by decide +kernel) (by decide +kernel)
        (by decide +kernel) (by decide +kernel)
    rw [e4]
    exact h1
  · have h1 := cmake_mem h (l := "target_link_libraries(thunder_robot_py PRIVATE yaml-cpp::yaml-cpp pybind11::module Eigen3::Eigen)") (by rw [hABC]; simp) hd
    have e1 : ch "target_link_libraries(thunder_robot_py PRIVATE yaml-cpp::yaml-cpp pybind11::module Eigen3::Eigen)" = ch "target_link_libraries(thunder_" ++
        (patRobot ++ ch "_py PRIVATE yaml-cpp::yaml-cpp pybind11::module Eigen3::Eigen)") := by decide +kernel
    have e2 : repl patRobot dst (ch "target_link_libraries(thunder_robot_py PRIVATE yaml-cpp::yaml-cpp pybind11::module Eigen3::Eigen)") =
        ch "target_link_libraries(thunder_" ++ (dst ++ ch "_py PRIVATE yaml-cpp::yaml-cpp pybind11::module Eigen3::Eigen)") := by
      rw [e1, repl_piece (by decide +kernel), repl_none (by decide) (not_occurs (by decide +kernel))]
    have e3 : ∀ {a b c d e f a' b' : List Char}, a' = a ++ b → b' = c ++ (d ++ (e ++ f)) → a ++ (b ++ dst ++ c) ++ d ++ e ++ f = a' ++ (dst ++ b') := by
      rintro a b c d e f a' b' rfl rfl
      simp only [List.append_assoc]
    rw [e2] at h1
    have e4 : linkLine (ch "thunder_" ++ dst ++ ch "_py") (ch "yaml-cpp::yaml-cpp pybind11::module Eigen3::Eigen") = _ :=
      e3 (a' := ch "target_link_libraries(thunder_") (b' := ch "_py PRIVATE yaml-cpp::yaml-cpp pybind11::module Eigen3::Eigen)") (by decide +kernel) (by decide +kernel)
    rw [e4]
    exact h1

/-! ## The constants are read in one way -/

theorem split_at {c : Char} : ∀ {a b x y : List Char}, c ∉ a → c ∉ b → a ++ c :: x = b ++ c :: y → a = b ∧ x = y
  | [], [], x, y, _, _, e => ⟨rfl, (List.cons.inj e).2⟩
  | [], d :: b, x, y, _, hb, e => absurd (by rw [(List.cons.inj e).1]; simp) hb
  | d :: a, [], x, y, ha, _, e => absurd (by rw [← (List.cons.inj e).1]; simp) ha
  | d :: a, d' :: b, x, y, ha, hb, e => by
    obtain ⟨rfl, e'⟩ := List.cons.inj e
    obtain ⟨rfl, rfl⟩ := split_at (fun h => ha (List.mem_cons_of_mem _ h)) (fun h => hb (List.mem_cons_of_mem _ h)) e'
    exact ⟨rfl, rfl⟩

theorem declares_unique {k k' : Const} (h : DeclaresConst l k) (h' : DeclaresConst l k') : k = k' := by
  obtain ⟨ws, hb, ht, hn, e⟩ := h
  obtain ⟨ws', hb', ht', hn', e'⟩ := h'
  have hc : ∀ {ws : List Char}, Blank ws → 'c' ∉ ws := fun h hm => by rcases h _ hm with h | h <;> revert h <;> decide
  have e1 : ∀ (ws ty nm v : List Char), ws ++ "const ".toList ++ ty ++ " ".toList ++ nm ++ " = ".toList ++ v ++ ";".toList =
      ws ++ 'c' :: ("onst ".toList ++ (ty ++ ' ' :: (nm ++ ' ' :: ("= ".toList ++ (v ++ ";".toList))))) := by
    have a1 : "const ".toList = 'c' :: "onst ".toList := by decide +kernel
    have a2 : " ".toList = [' '] := by decide +kernel
    have a3 : " = ".toList = ' ' :: "= ".toList := by decide +kernel
    intro ws ty nm v
    rw [a1, a2, a3]
    simp only [List.append_assoc, List.cons_append, List.nil_append]
  rw [e1] at e e'
  obtain ⟨-, e2⟩ := split_at (hc hb) (hc hb') (e.symm.trans e')
  obtain ⟨e3, e4⟩ := split_at ht ht' (List.append_cancel_left e2)
  obtain ⟨e5, e6⟩ := split_at hn hn' e4
  have e7 := List.append_cancel_right (List.append_cancel_left e6)
  cases k
  cases k'
  simp_all

theorem constants_unique {ls : List (List Char)} {ks ks' : List Const} (h : Constants ls ks) (h' : Constants ls ks') : ks = ks' := by
  induction h generalizing ks' with
  | nil => cases h'; rfl
  | skip hl _ ih =>
    cases h' with
    | skip _ h' => exact ih h'
    | decl hd _ => exact absurd hd (hl _)
  | decl hd _ ih =>
    cases h' with
    | skip hl _ => exact absurd hd (hl _)
    | decl hd' h' => rw [declares_unique hd hd', ih h']

end Thunder.Text
