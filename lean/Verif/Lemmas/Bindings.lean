import Verif.Lemmas.Instantiate

/-!
# The generated source with Python bindings
-/

namespace Thunder.Text

open Spec

variable {pat rep s l m p t dst : List Char} {i : Info} {fs : List FunObj}

/-! ## Inserting the template of the bindings -/

/-- The lines of the source template with the lines of the bindings and the two includes in place of their markers. -/
def pyChars : List (List Char) :=
  let a := sourceChars.takeWhile (· ≠ patIncl)
  let b := (sourceChars.dropWhile (· ≠ patIncl)).tail
  let b₁ := b.takeWhile (· ≠ patBind)
  let b₂ := (b.dropWhile (· ≠ patBind)).tail
  a ++ textIncl1 :: textIncl2 :: [] :: (b₁ ++ bindingChars ++ b₂)

theorem bind_ne : patBind ≠ [] := by decide
theorem bind_nl : '\n' ∉ patBind := by decide
theorem incl_ne : patIncl ≠ [] := by decide
theorem incl_nl : '\n' ∉ patIncl := by decide

theorem bindingImport_eq : bindingImport = unlines [textIncl1, textIncl2, []] := by decide +kernel

theorem stable_nil : Stable pat [] := by intro t ht hs; exact absurd (List.suffix_nil.1 hs) ht

set_option maxRecDepth 100000 in
theorem py_split : ∃ a b₁ b₂ r R, sourceChars = a ++ patIncl :: (b₁ ++ patBind :: b₂) ∧ bindingChars = r :: R ∧
    pyChars = a ++ textIncl1 :: textIncl2 :: [] :: (b₁ ++ r :: (R ++ b₂)) ∧
    (∀ l ∈ a ++ patIncl :: b₁, occurs patBind l = false) ∧ (∀ l ∈ b₂, occurs patBind l = false) ∧
    (∀ l ∈ a, occurs patIncl l = false) ∧ ∀ l ∈ b₁ ++ r :: (R ++ b₂), occurs patIncl l = false := by
  refine ⟨sourceChars.take 4, (sourceChars.drop 5).take 827, sourceChars.drop 833, bindingChars.head!, bindingChars.tail, ?_, ?_, ?_, ?_, ?_, ?_, ?_⟩ <;>
    decide +kernel

theorem bindingSubst_run (r : Option (List Char)) : ReplaceSeq bindingSubst sourceFile r ↔ r = some (unlines pyChars) := by
  obtain ⟨a, b₁, b₂, h, R, h1, h2, h3, h4, h5, h6, h7⟩ := py_split
  have e1 : repl patBind (unlines (h :: R)) (unlines ((a ++ patIncl :: b₁) ++ ([] ++ patBind) :: b₂)) =
      unlines ((a ++ patIncl :: b₁) ++ ([] ++ h) :: (R ++ b₂)) :=
    repl_marker bind_ne bind_nl stable_nil (fun l hl => not_occurs (h4 l hl)) fun l hl => not_occurs (h5 l hl)
  have e2 : repl patIncl (unlines (textIncl1 :: [textIncl2, []])) (unlines (a ++ ([] ++ patIncl) :: (b₁ ++ h :: (R ++ b₂)))) =
      unlines (a ++ ([] ++ textIncl1) :: ([textIncl2, []] ++ (b₁ ++ h :: (R ++ b₂)))) :=
    repl_marker incl_ne incl_nl stable_nil (fun l hl => not_occurs (h6 l hl)) fun l hl => not_occurs (h7 l hl)
  have e3 : sourceFile = unlines ((a ++ patIncl :: b₁) ++ ([] ++ patBind) :: b₂) := by
    rw [sourceFile, sourceLines_eq, h1]
    simp
  have e4 : bindingText = unlines (h :: R) := by rw [bindingText, bindingLines_eq, h2]
  unfold bindingSubst
  rw [patBind_eq, patIncl_eq, replaceSeq_iff (by
    intro q hq
    simp only [List.mem_cons, List.not_mem_nil, or_false] at hq
    rcases hq with rfl | rfl
    · exact bind_ne
    · exact incl_ne)]
  simp only [List.foldl_cons, List.foldl_nil]
  rw [e3, e4, e1, bindingImport_eq]
  rw [show (a ++ patIncl :: b₁) ++ ([] ++ h) :: (R ++ b₂) = a ++ ([] ++ patIncl) :: (b₁ ++ h :: (R ++ b₂)) by simp, e2, h3]
  simp

set_option maxRecDepth 100000 in
theorem py_lines : (pyChars.filter fun l => !quiet sourcePats ['F', 'G'] l) = [patCpp, patPy] := by decide +kernel

/-! ## The bindings of the functions -/

/-- The binding of a function. -/
def bindOf (dst : List Char) (f : FunObj) : List Char :=
  ch "\t\t.def(\"get_" ++ ch f.name ++ ch "\", &thunder_" ++ dst ++ ch "::get_" ++ ch f.name ++ ch ", \"" ++ ch f.descr ++ ch "\")"

theorem bindingFuns_eq {fs : List FunObj} (hn : fs ≠ []) :
    bindingFuns dst fs = some (unlines (fs.dropLast.map (bindOf dst) ++ [bindOf dst (fs.getLast hn) ++ [';'], []])) := by
  have h1 : ch "\")\n" = ch "\")" ++ ['\n'] := by decide +kernel
  have h2 : ch ";\n" = [';', '\n'] := by decide +kernel
  have hf : ∀ fs : List FunObj, (fs.flatMap fun f => ch "\t\t.def(\"get_" ++ ch f.name ++ ch "\", &thunder_" ++ dst ++ ch "::get_" ++ ch f.name ++ ch ", \"" ++ ch f.descr ++
      ch "\")\n") = (fs.map (bindOf dst)).flatMap (fun l => l ++ ['\n']) := by
    intro fs
    rw [List.flatMap_map]
    have key : ∀ {a b c d e g h k k' n : List Char}, k = k' ++ n → a ++ b ++ c ++ d ++ e ++ g ++ h ++ k = (a ++ b ++ c ++ d ++ e ++ g ++ h ++ k') ++ n := by
      intro a b c d e g h k k' n hk; rw [hk]; simp only [List.append_assoc]
    have key2 : ∀ {a b c d e g h x k k' n : List Char}, k = k' ++ n →
        a ++ b ++ c ++ d ++ e ++ g ++ h ++ x ++ k = (a ++ b ++ c ++ d ++ e ++ g ++ h ++ x ++ k') ++ n := by
      intro a b c d e g h x k k' n hk; rw [hk]; simp only [List.append_assoc]
    exact congrArg (fun g => List.flatMap g fs) (funext fun f => key2 h1)
  unfold bindingFuns
  simp only []
  rewrite [hf, h2]
  obtain ⟨L, x, e⟩ : ∃ L x, fs = L ++ [x] := ⟨_, _, (List.dropLast_append_getLast hn).symm⟩
  have e1 : fs.dropLast = L := by rw [e, List.dropLast_concat]
  have e2 : fs.getLast hn = x := by simp [e]
  rw [e1, e2, e, List.map_append, List.map_singleton]
  generalize bindOf dst x = y
  generalize L.map (bindOf dst) = M
  have e3 : (M ++ [y]).flatMap (fun l => l ++ ['\n']) = (M.flatMap (fun l => l ++ ['\n']) ++ y) ++ ['\n'] := by
    rw [List.flatMap_append, List.flatMap_singleton, List.append_assoc]
  rw [e3, if_neg (by simp), List.dropLast_concat, show M ++ [y ++ [';'], []] = (M ++ [y ++ [';']]) ++ [[]] by simp, unlines_concat, List.append_nil,
    List.flatMap_append, List.flatMap_singleton]
  simp only [List.append_assoc]
  rfl

theorem bind_prefix (dst : List Char) (f : FunObj) (s : List Char) : ch "\t\t.def(\"get_" <+: bindOf dst f ++ s := by
  unfold bindOf
  simp only [List.append_assoc]
  exact List.prefix_append _ _

theorem repOk_bind {f : FunObj} (hd : RepOk dst) (hf : FunOk f) : RepOk (bindOf dst f) := by
  have h1 : RepOk (ch "\t\t.def(\"get_") := ⟨by decide +kernel, by decide +kernel⟩
  have h2 : RepOk (ch "\", &thunder_") := ⟨by decide +kernel, by decide +kernel⟩
  have h3 : RepOk (ch "::get_") := ⟨by decide +kernel, by decide +kernel⟩
  have h4 : RepOk (ch ", \"") := ⟨by decide +kernel, by decide +kernel⟩
  have h5 : RepOk (ch "\")") := ⟨by decide +kernel, by decide +kernel⟩
  exact repOk_append (repOk_append (repOk_append (repOk_append (repOk_append (repOk_append (repOk_append (repOk_append h1 hf.name) h2) hd) h3) hf.name) h4) hf.descr) h5

theorem never_bind : never (ch "\t\t.def(\"get_") = true := by decide +kernel

/-- The source with bindings: the only outcome, the defined getters, and the lines of the bindings. -/
theorem source_py_ok (hd : RepOk dst) (hi : InfoOk i) (hf : ∀ f ∈ fs, FunOk f) (hn : fs ≠ []) :
    ∃ t, (∀ o, Source (ch "robot") dst i fs true sourceFile o ↔ o = .ok t) ∧ Defined dst (textLines t) (fs.map (defOf i.robotName)) ∧
      ∃ A B, textLines t = A ++ (fs.dropLast.map (bindOf dst) ++ (bindOf dst (fs.getLast hn) ++ [';']) :: B) := by
  obtain ⟨A, L', B, h1, hA, hB, hL'⟩ := source_core (robotName := i.robotName) hd py_lines (by
    intro m hm
    rw [List.mem_singleton.1 hm]
    exact ⟨not_occurs (by decide +kernel), not_occurs (by decide +kernel)⟩) fs
  obtain ⟨a, L'', hks, hL''⟩ := kinds_cons hL'
  rw [hks] at hB
  obtain ⟨B₁, B₂, rfl, hB₁, hB⟩ := shape_split hB
  rw [kinds_nil hL''] at hB
  have hB₂ := shape_replicate hB
  have h0 : ∀ r, ReplaceSeq (if true = true then bindingSubst else []) sourceFile r ↔ r = some (unlines pyChars) := by
    intro r
    rw [if_pos rfl]
    exact bindingSubst_run r
  have hb := bindingFuns_eq (dst := dst) hn
  -- the last replacement
  have hblk : ∀ l ∈ A ++ [] :: (fs.flatMap (sourceBlock i.robotName dst) ++ [[]] ++ B₁), ¬ patPy <:+: l ∧ '\n' ∉ l := by
    have hh : ∀ l : List Char, RepOk l → ¬ patPy <:+: l ∧ '\n' ∉ l := by
      intro l h
      exact ⟨fun hx => h.hash (hx.subset (by decide)), h.nl⟩
    intro l hl
    simp only [List.mem_append, List.mem_cons, List.not_mem_nil, or_false, List.mem_flatMap] at hl
    rcases hl with hl | rfl | (⟨f, hf', hl⟩ | rfl) | hl
    · exact ⟨(hA l hl).no_marker marker_Py, (hA l hl).nl⟩
    · exact hh _ ⟨by simp, by simp⟩
    · exact hh _ (repOk_sourceBlock hi.name hd (hf f hf') l hl)
    · exact hh _ ⟨by simp, by simp⟩
    · exact ⟨(hB₁ l hl).no_marker marker_Py, (hB₁ l hl).nl⟩
  obtain ⟨r₀, R, hR⟩ : ∃ r₀ R, fs.dropLast.map (bindOf dst) ++ [bindOf dst (fs.getLast hn) ++ [';'], []] = r₀ :: R :=
    List.exists_cons_of_ne_nil (by simp)
  have hR' : fs.dropLast.map (bindOf dst) ++ (bindOf dst (fs.getLast hn) ++ [';']) :: [] :: B₂ = r₀ :: (R ++ B₂) := by
    rw [← List.cons_append, ← hR]; simp
  have hm := repl_marker (pat := patPy) (ws := []) (r₀ := r₀) (R := R) py_ne py_nl stable_nil (fun l hl => (hblk l hl).1) fun l hl => (hB₂ l hl).no_marker marker_Py
  rw [← hR, List.nil_append, List.nil_append, ← hR'] at hm
  have hrb : ∀ b r, bindingFuns dst fs = some b →
      (ReplaceSeq [(ch "/*#-GENERATED_PYTHON_BINDINGS-#*/", b)] (unlines (A ++ [] :: (fs.flatMap (sourceBlock i.robotName dst) ++ [[]] ++ (B₁ ++ patPy :: B₂)))) r ↔
      r = some (unlines ((A ++ [] :: (fs.flatMap (sourceBlock i.robotName dst) ++ [[]] ++ B₁)) ++
        (fs.dropLast.map (bindOf dst) ++ (bindOf dst (fs.getLast hn) ++ [';']) :: [] :: B₂)))) := by
    intro b r hb'
    rw [hb] at hb'
    obtain rfl := Option.some.inj hb'
    rw [patPy_eq, replaceSeq_iff (by
      intro q hq
      rw [List.mem_singleton.1 hq]
      exact py_ne), List.foldl_cons, List.foldl_nil, ← hm]
    simp
  have hlines : textLines (unlines ((A ++ [] :: (fs.flatMap (sourceBlock i.robotName dst) ++ [[]] ++ B₁)) ++
        (fs.dropLast.map (bindOf dst) ++ (bindOf dst (fs.getLast hn) ++ [';']) :: [] :: B₂))) =
      (A ++ [] :: (fs.flatMap (sourceBlock i.robotName dst) ++ [[]] ++ B₁)) ++
        (fs.dropLast.map (bindOf dst) ++ (bindOf dst (fs.getLast hn) ++ [';']) :: [] :: B₂) := by
    refine textLines_unlines ?_ (by simp)
    intro l hl
    rw [List.mem_append] at hl
    rcases hl with hl | hl
    · exact (hblk l hl).2
    · simp only [List.mem_append, List.mem_cons, List.mem_map] at hl
      rcases hl with ⟨f, hf', rfl⟩ | rfl | rfl | hl
      · exact (repOk_bind hd (hf f (List.dropLast_subset _ hf'))).nl
      · exact (repOk_append (repOk_bind hd (hf _ (List.getLast_mem hn))) (m := [';']) ⟨by decide, by decide⟩).nl
      · simp
      · exact (hB₂ l hl).nl
  refine ⟨_, fun o => ⟨fun h => ?_, ?_⟩, ?_, ⟨_, _, hlines⟩⟩
  · cases h with
    | bind h => rw [h0] at h; cases h
    | subst h h' => rw [h0] at h; obtain rfl := Option.some.inj h; rw [h1] at h'; cases h'
    | pop _ _ _ h => rw [hb] at h; cases h
    | last h h' _ h2 h3 =>
      rw [h0] at h; obtain rfl := Option.some.inj h; rw [h1] at h'; obtain rfl := Option.some.inj h'
      rw [hrb _ _ h2] at h3; cases h3
    | okPy h h' _ h2 h3 =>
      rw [h0] at h; obtain rfl := Option.some.inj h; rw [h1] at h'; obtain rfl := Option.some.inj h'
      rw [hrb _ _ h2] at h3; rw [Option.some.inj h3]
    | ok _ _ h => cases h
  · rintro rfl
    exact .okPy ((h0 _).2 rfl) ((h1 _).2 rfl) rfl hb ((hrb _ _ hb).2 rfl)
  · have hrest : Defined dst (fs.dropLast.map (bindOf dst) ++ (bindOf dst (fs.getLast hn) ++ [';']) :: [] :: B₂) [] := by
      refine defined_append ?_ (.skip (fun g => not_opens never_bind (bind_prefix _ _ _) _ g) (.skip (fun g => not_opens_blank blank_nil _ g) ?_))
      · intro l hl g
        obtain ⟨f, -, rfl⟩ := List.mem_map.1 hl
        have := bind_prefix dst f []
        rw [List.append_nil] at this
        exact not_opens never_bind this _ g
      · have := defined_append (robot := dst) (A := B₂) (B := []) (fun l hl g => (hB₂ l hl).not_opens _ g) .nil
        rwa [List.append_nil] at this
    rw [hlines, List.append_assoc]
    refine defined_append (fun l hl g => (hA l hl).not_opens _ g) ?_
    rw [List.cons_append]
    refine .skip (fun g => not_opens_blank blank_nil _ g) ?_
    rw [List.append_assoc, List.append_assoc]
    have := defined_block (robotName := i.robotName) (ds := []) (dst := dst) (.skip (l := []) (fun g => not_opens_blank blank_nil _ g)
      (defined_append (robot := dst) (A := B₁) (fun l hl g => (hB₁ l hl).not_opens _ g) hrest)) fs
    rwa [List.append_nil] at this

end Thunder.Text
