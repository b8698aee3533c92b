import Verif.Lemmas.Shape
import Verif.Lemmas.TemplateChars

/-!
# The two generated files
-/

namespace Thunder.Text

open Spec

variable {pat rep s l m p t dst : List Char} {i : Info} {fs : List FunObj} {py : Bool}

/-! ## Texts without newline and hash -/

theorem repOk_append (h : RepOk l) (h' : RepOk m) : RepOk (l ++ m) :=
  ⟨by simp [h.nl, h'.nl], by simp [h.hash, h'.hash]⟩

theorem repOk_flatMap {α : Type} {L : List α} {f : α → List Char} (h : ∀ a ∈ L, RepOk (f a)) : RepOk (L.flatMap f) := by
  constructor <;> rw [List.mem_flatMap] <;> rintro ⟨a, ha, hc⟩
  · exact (h a ha).nl hc
  · exact (h a ha).hash hc

theorem repOk_digits (n : ℕ) : RepOk (Nat.toDigits 10 n) :=
  ⟨fun h => absurd (isDigit_dec h) (by decide), fun h => absurd (isDigit_dec h) (by decide)⟩

theorem repOk_dec (n : ℕ) : RepOk (dec n) := dec_eq n ▸ repOk_digits n

theorem repOk_decI (z : ℤ) : RepOk (decI z) := by
  cases z with
  | ofNat n => exact repOk_dec n
  | negSucc n =>
    have : decI (Int.negSucc n) = '-' :: dec (n + 1) := by
      show (toString (Int.negSucc n)).toList = _
      have e : toString (Int.negSucc n) = "-" ++ toString (n + 1) := rfl
      rw [e, String.toList_append]; rfl
    rw [this]
    exact repOk_append (l := ['-']) ⟨by decide, by decide⟩ (repOk_dec _)

/-- The texts that go into the generated files: within a line and without `#`. -/
structure FunOk (f : FunObj) : Prop where
  name : RepOk (ch f.name)
  descr : RepOk (ch f.descr)
  args : ∀ a ∈ f.args, RepOk (ch a)

/-- As above for the members of the robot; at least one joint. -/
structure InfoOk (i : Info) : Prop where
  name : RepOk i.robotName
  pos : 0 < i.n
  ela : i.n ≤ i.isEla.length

theorem elastic_ok (h : InfoOk i) : ∃ e, elasticText i.isEla i.n = some e ∧ RepOk e := by
  have h1 := h.pos
  have h2 := h.ela
  rcases hl : i.isEla with _ | ⟨z, l⟩
  · rw [hl] at h2; simp at h2; omega
  · rw [hl] at h2
    have : i.n - 1 ≤ l.length := by simp at h2; omega
    refine ⟨_, by rw [elasticText, if_pos this], ?_⟩
    have hb : RepOk (ch "{") := ⟨by decide +kernel, by decide +kernel⟩
    have hc : RepOk (ch "}") := ⟨by decide +kernel, by decide +kernel⟩
    have hk : RepOk (ch ", ") := ⟨by decide +kernel, by decide +kernel⟩
    exact repOk_append (repOk_append (repOk_append hb (repOk_decI z)) (repOk_flatMap fun z _ => repOk_append hk (repOk_decI z))) hc

/-! ## The getters of the functions -/

/-- What the generated class should contain for a function. -/
def getterOf (f : FunObj) : Getter := ⟨f.rows, f.cols, ch f.name⟩

theorem type_getterOf (f : FunObj) : (getterOf f).type = retType f := by
  have h1 : ch "," = [','] := by decide +kernel
  have h2 : ch ">" = ['>'] := by decide +kernel
  unfold Getter.type retType getterOf
  rw [dec_eq, dec_eq, h1, h2]

theorem repOk_ret (f : FunObj) : RepOk (retType f) := by
  have h1 : RepOk (ch "Eigen::Matrix<double,") := ⟨by decide +kernel, by decide +kernel⟩
  have h2 : RepOk (ch ",") := ⟨by decide +kernel, by decide +kernel⟩
  have h3 : RepOk (ch ">") := ⟨by decide +kernel, by decide +kernel⟩
  exact repOk_append (repOk_append (repOk_append (repOk_append h1 (repOk_dec _)) h2) (repOk_dec _)) h3

/-! ## Header -/

/-- The patterns of the header. -/
def headerPats : List (List Char) := [patGuard, patRobot, patName, patN, patEla, patNe, patK, patD, patDl, patDm, patIs]

set_option maxRecDepth 100000 in
theorem header_lines : (headerChars.filter fun l => !quiet headerPats ['F'] l) = ['\t' :: '\t' :: patH] := by decide +kernel

theorem header_guards : ∃ a b c d L, headerChars = (a ++ patGuard ++ b) :: (c ++ patGuard ++ d) :: L :=
  ⟨['#', 'i', 'f', 'n', 'd', 'e', 'f', ' '], ['_', 'H'], ['#', 'd', 'e', 'f', 'i', 'n', 'e', ' '], ['_', 'H'], headerChars.drop 2, by decide +kernel⟩

/-- First character and no newline. -/
def patOk (pat : List Char) : Bool := (match pat with | [] => false | c :: _ => starts.contains c) && !pat.contains '\n'

theorem patOk_spec (h : patOk pat = true) : PatOk pat := by
  rcases pat with _ | ⟨c, t⟩
  · cases h
  · simp only [patOk, Bool.and_eq_true, Bool.not_eq_true'] at h
    exact ⟨⟨c, t, rfl, by simpa using h.1⟩, by simpa using h.2⟩

/-- `pat` occurs in `l`. -/
def occurs (pat l : List Char) : Bool := l.tails.any fun t => pat.isPrefixOf t

theorem occurs_iff : occurs pat l = true ↔ pat <:+: l := by
  simp only [occurs, List.any_eq_true, List.mem_tails, List.isPrefixOf_iff_prefix]
  constructor
  · rintro ⟨t, h1, h2⟩; exact h2.isInfix.trans h1.isInfix
  · rintro ⟨a, b, rfl⟩
    exact ⟨pat ++ b, by rw [List.append_assoc]; exact List.suffix_append _ _, List.prefix_append _ _⟩

theorem not_occurs (h : occurs pat l = false) : ¬ pat <:+: l := by rw [← occurs_iff, h]; simp

theorem header_pats : ∀ pat ∈ headerPats, PatOk pat ∧ ¬ pat <:+: '\t' :: '\t' :: patH := by
  have : (headerPats.all fun pat => patOk pat && !occurs pat ('\t' :: '\t' :: patH)) = true := by decide +kernel
  intro pat hp
  have := List.all_eq_true.1 this pat hp
  simp only [Bool.and_eq_true, Bool.not_eq_true'] at this
  exact ⟨patOk_spec this.1, not_occurs this.2⟩

theorem marker_H : Marker ['F'] patH := ⟨['/', '*'], 'F', patH.drop 5, by decide +kernel, by decide⟩

/-- Lines inserted into the header for a function. -/
def headerBlock (f : FunObj) : List (List Char) :=
  [ch "\t\t// - " ++ ch f.descr ++ ch " - //", ch "\t\t" ++ retType f ++ ch " get_" ++ ch f.name ++ ch "();", []]

theorem headerFuns_eq (fs : List FunObj) : headerFuns fs = unlines ([] :: (fs.flatMap headerBlock ++ [[]])) := by
  rw [← List.cons_append, unlines_concat, List.append_nil]
  have h1 : ch " - //\n" = ch " - //" ++ ['\n'] := by decide +kernel
  have h2 : ch "();\n\n" = ch "();" ++ ['\n', '\n'] := by decide +kernel
  have h3 : ch "\n" = ['\n'] := by decide +kernel
  rw [headerFuns, h1, h2, h3, List.flatMap_cons, List.flatMap_assoc]
  congr 1
  refine congrArg (fun g => List.flatMap g fs) (funext fun f => ?_)
  simp [headerBlock]

theorem declared_append {A B : List (List Char)} {gs : List Getter} (hA : ∀ l ∈ A, ∀ g, ¬ Declares l g) (hB : Declared B gs) : Declared (A ++ B) gs := by
  induction A with
  | nil => exact hB
  | cons l A ih => exact .skip (hA l List.mem_cons_self) (ih fun l hl => hA l (List.mem_cons_of_mem _ hl))

theorem blank_nil : Blank [] := by intro c hc; cases hc
theorem blank_tabs : Blank (ch "\t\t") := blank_iff.2 (by decide +kernel)

theorem never_prefix (q : String) (h : never (ch q) = true) : never (ch q) = true ∧ ∀ s, ch q <+: ch q ++ s := ⟨h, fun s => List.prefix_append _ s⟩

theorem declared_block {B : List (List Char)} {gs : List Getter} (hB : Declared B gs) (fs : List FunObj) :
    Declared (fs.flatMap headerBlock ++ B) (fs.map getterOf ++ gs) := by
  induction fs with
  | nil => exact hB
  | cons f fs ih =>
    rw [List.flatMap_cons, List.append_assoc, List.map_cons, List.cons_append]
    refine .skip (fun g => ?_) (.decl ?_ (.skip (fun g => not_declares_blank blank_nil g) ih))
    · exact not_declares (q := ch "\t\t// - ") (by decide +kernel) (by rw [List.append_assoc]; exact List.prefix_append _ _) g
    · exact ⟨ch "\t\t", blank_tabs, by rw [type_getterOf]; rfl⟩

theorem nl_headerBlock {f : FunObj} (h : FunOk f) : ∀ l ∈ headerBlock f, '\n' ∉ l := by
  intro l hl
  have h1 : RepOk (ch "\t\t// - ") := ⟨by decide +kernel, by decide +kernel⟩
  have h2 : RepOk (ch " - //") := ⟨by decide +kernel, by decide +kernel⟩
  have h3 : RepOk (ch "\t\t") := ⟨by decide +kernel, by decide +kernel⟩
  have h4 : RepOk (ch " get_") := ⟨by decide +kernel, by decide +kernel⟩
  have h5 : RepOk (ch "();") := ⟨by decide +kernel, by decide +kernel⟩
  simp only [headerBlock, List.mem_cons, List.not_mem_nil, or_false] at hl
  rcases hl with rfl | rfl | rfl
  · exact (repOk_append (repOk_append h1 h.descr) h2).nl
  · exact (repOk_append (repOk_append (repOk_append (repOk_append h3 (repOk_ret f)) h4) h.name) h5).nl
  · simp

/-- The header: the only outcome, and the declared getters. -/
theorem header_ok (hd : RepOk dst) (hi : InfoOk i) (hf : ∀ f ∈ fs, FunOk f) :
    ∃ t, (∀ o, Header (ch "robot") dst i fs headerFile o ↔ o = .ok t) ∧ Declared (textLines t) (fs.map getterOf) := by
  obtain ⟨a, L', hks, hL'⟩ := kinds_cons header_lines
  have hks' := kinds_nil hL'
  rw [hks'] at hks
  have hs0 : Shape headerPats ['F'] (List.replicate a none ++ some ('\t' :: '\t' :: patH) :: List.replicate L'.length none) headerFile := by
    rw [headerFile, headerLines_eq, ← hks]
    exact shape_template _
  have hkm : ∀ pat ∈ headerPats, ∀ m, some m ∈ List.replicate a none ++ some ('\t' :: '\t' :: patH) :: List.replicate L'.length none → ¬ pat <:+: m := by
    intro pat hp m hm
    have : m = '\t' :: '\t' :: patH := by simpa [List.mem_replicate] using hm
    rw [this]
    exact (header_pats pat hp).2
  generalize hK : List.replicate a none ++ some ('\t' :: '\t' :: patH) :: List.replicate L'.length none = K at hs0 hkm
  -- guards
  have hg : RepOk (ch "THUNDER_" ++ dst) := repOk_append ⟨by decide +kernel, by decide +kernel⟩ hd
  have hgm : patGuard ∈ headerPats := List.mem_cons_self
  have hgp := (header_pats _ hgm).1
  obtain ⟨t₁, t₂, e₁, e₂, hs2⟩ : ∃ t₁ t₂, replaceFirst headerFile patGuard (ch "THUNDER_" ++ dst) = some t₁ ∧
      replaceFirst t₁ patGuard (ch "THUNDER_" ++ dst) = some t₂ ∧ Shape headerPats ['F'] K t₂ := by
    obtain ⟨a, b, c, d, L, hL⟩ := header_guards
    have hfile : headerFile = unlines ((a ++ patGuard ++ b) :: (c ++ patGuard ++ d) :: L) := by rw [headerFile, headerLines_eq, hL]
    obtain ⟨t₁, e₁⟩ : ∃ t₁, replaceFirst headerFile patGuard (ch "THUNDER_" ++ dst) = some t₁ :=
      replaceFirst_some (by rw [hfile]; exact infix_unlines List.mem_cons_self ⟨a, b, rfl⟩)
    have hs1 := hs0.first hgm hgp hg (hkm _ hgm) e₁
    obtain ⟨u, v, e, rfl⟩ := replaceFirst_occ e₁
    obtain ⟨A, p, s, B, h1, h2⟩ := occ_line hgp.ne hgp.nl _ u v (hfile ▸ e)
    have hin : patGuard <:+: u ++ (ch "THUNDER_" ++ dst) ++ v := by
      rw [h2]
      rcases A with _ | ⟨x, A⟩
      · refine infix_unlines (l := c ++ patGuard ++ d) ?_ ⟨c, d, rfl⟩
        rw [List.nil_append] at h1
        obtain ⟨-, h3⟩ := List.cons.inj h1
        rw [← h3]; simp
      · refine infix_unlines (l := a ++ patGuard ++ b) ?_ ⟨a, b, rfl⟩
        rw [List.cons_append] at h1
        rw [(List.cons.inj h1).1]; simp
    obtain ⟨t₂, e₂⟩ := replaceFirst_some (rep := ch "THUNDER_" ++ dst) hin
    exact ⟨_, t₂, e₁, e₂, hs1.first hgm hgp hg (hkm _ hgm) e₂⟩
  -- variables
  have hsub : ∀ q ∈ headerSubst (ch "robot") dst i, q.1 ∈ headerPats ∧ RepOk q.2 := by
    intro q hq
    have he : RepOk (if i.elastic then ch "1" else ch "0") := by split_ifs <;> exact ⟨by decide +kernel, by decide +kernel⟩
    rw [headerSubst, patRobot_eq, patName_eq, patN_eq, patEla_eq, patNe_eq, patK_eq, patD_eq, patDl_eq, patDm_eq] at hq
    simp only [List.mem_cons, List.not_mem_nil, or_false] at hq
    rcases hq with rfl | rfl | rfl | rfl | rfl | rfl | rfl | rfl | rfl
    exacts [⟨by simp [headerPats], hd⟩, ⟨by simp [headerPats], hi.name⟩, ⟨by simp [headerPats], repOk_dec _⟩, ⟨by simp [headerPats], he⟩,
      ⟨by simp [headerPats], repOk_dec _⟩, ⟨by simp [headerPats], repOk_decI _⟩, ⟨by simp [headerPats], repOk_decI _⟩,
      ⟨by simp [headerPats], repOk_decI _⟩, ⟨by simp [headerPats], repOk_decI _⟩]
  have hfold : ∀ (ps : List (List Char × List Char)) (t : List Char), (∀ q ∈ ps, q.1 ∈ headerPats ∧ RepOk q.2) → Shape headerPats ['F'] K t →
      Shape headerPats ['F'] K (ps.foldl (fun s p => repl p.1 p.2 s) t) := by
    intro ps
    induction ps with
    | nil => intro t _ h; exact h
    | cons q ps ih =>
      intro t hq h
      have h1 := hq q List.mem_cons_self
      exact ih _ (fun q hq' => hq q (List.mem_cons_of_mem _ hq')) (h.repl h1.1 (header_pats _ h1.1).1 h1.2 (hkm _ h1.1))
  obtain ⟨t₃, ht₃⟩ : ∃ t₃, t₃ = (headerSubst (ch "robot") dst i).foldl (fun s p => repl p.1 p.2 s) t₂ := ⟨_, rfl⟩
  have hs3 : Shape headerPats ['F'] K t₃ := ht₃ ▸ hfold _ _ hsub hs2
  have hrs : ∀ r, ReplaceSeq (headerSubst (ch "robot") dst i) t₂ r ↔ r = some t₃ := by
    intro r
    rw [ht₃]
    exact replaceSeq_iff fun q hq => (header_pats _ (hsub q hq).1).1.ne
  obtain ⟨e, he, her⟩ := elastic_ok hi
  have hIs : patIs ∈ headerPats := by simp [headerPats]
  have hs4 := hs3.repl (rep := e) hIs (header_pats _ hIs).1 her (hkm _ hIs)
  have hH : patH ≠ [] := by decide
  have hnl : '\n' ∉ patH := by decide
  have hlast : ∀ r, ReplaceSeq [(ch "/*#-isElasticJoint-#*/", e), (ch "/*#-FUNCTIONS_H-#*/", headerFuns fs)] t₃ r ↔
      r = some (repl patH (headerFuns fs) (repl patIs e t₃)) := by
    intro r
    rw [patIs_eq, patH_eq]
    refine replaceSeq_iff fun q hq => ?_
    simp only [List.mem_cons, List.not_mem_nil, or_false] at hq
    rcases hq with rfl | rfl
    · exact (header_pats _ hIs).1.ne
    · exact hH
  refine ⟨repl patH (headerFuns fs) (repl patIs e t₃), fun o => ⟨fun h => ?_, ?_⟩, ?_⟩
  · cases h with
    | guard₁ h => rw [patGuard_eq, e₁] at h; cases h
    | guard₂ h h' => rw [patGuard_eq, e₁] at h; obtain rfl := Option.some.inj h; rw [patGuard_eq, e₂] at h'; cases h'
    | subst h h' h'' =>
      rw [patGuard_eq, e₁] at h; obtain rfl := Option.some.inj h; rw [patGuard_eq, e₂] at h'; obtain rfl := Option.some.inj h'
      rw [hrs] at h''; cases h''
    | elastic h h' h'' h3 => rw [he] at h3; cases h3
    | last h h' h'' h3 h4 =>
      rw [patGuard_eq, e₁] at h; obtain rfl := Option.some.inj h; rw [patGuard_eq, e₂] at h'; obtain rfl := Option.some.inj h'
      rw [hrs] at h''; obtain rfl := Option.some.inj h''
      rw [he] at h3; obtain rfl := Option.some.inj h3
      rw [hlast] at h4; cases h4
    | ok h h' h'' h3 h4 =>
      rw [patGuard_eq, e₁] at h; obtain rfl := Option.some.inj h; rw [patGuard_eq, e₂] at h'; obtain rfl := Option.some.inj h'
      rw [hrs] at h''; obtain rfl := Option.some.inj h''
      rw [he] at h3; obtain rfl := Option.some.inj h3
      rw [hlast] at h4; rw [Option.some.inj h4]
  · rintro rfl
    exact .ok (by rw [patGuard_eq]; exact e₁) (by rw [patGuard_eq]; exact e₂) ((hrs _).2 rfl) he ((hlast _).2 rfl)
  · obtain ⟨ls, hls, hF⟩ := hs4
    rw [← hK] at hF
    obtain ⟨A, B, rfl, hA, hB⟩ := shape_split hF
    have hB := shape_replicate hB
    have hst : Stable patH ['\t', '\t'] := stable_spec (by decide)
    rw [hls, headerFuns_eq, show ('\t' :: '\t' :: patH) = ['\t', '\t'] ++ patH from rfl,
      repl_marker hH hnl hst (fun l hl => (hA l hl).no_marker marker_H) (fun l hl => (hB l hl).no_marker marker_H),
      textLines_unlines ?_ (by simp)]
    · refine declared_append (fun l hl g => (hA l hl).not_declares g) (.skip (fun g => not_declares_blank ?_ g) ?_)
      · exact blank_iff.2 (by decide)
      · rw [List.append_assoc]
        have := declared_block (B := [[]] ++ B) (gs := []) (.skip (fun g => not_declares_blank blank_nil g) ?_) fs
        · rwa [List.append_nil] at this
        · have := declared_append (A := B) (B := []) (fun l hl g => (hB l hl).not_declares g) .nil
          rwa [List.append_nil] at this
    · intro l hl
      simp only [List.mem_append, List.mem_cons, List.not_mem_nil, or_false, List.mem_flatMap] at hl
      rcases hl with hl | rfl | (⟨f, hf', hl⟩ | rfl) | hl
      · exact (hA l hl).nl
      · decide
      · exact nl_headerBlock (hf f hf') l hl
      · simp
      · exact (hB l hl).nl

/-! ## Source -/

/-- The C function of a getter. -/
def cName (robotName : List Char) (f : FunObj) : List Char := robotName ++ ch "_" ++ ch f.name ++ ch "_fun"

/-- The statements of a getter. -/
def stmtsOf (robotName : List Char) (f : FunObj) : List Stmt :=
  [.array (ch "double") (ch "buffer") (Nat.toDigits 10 (f.rows * f.cols)), .array (ch "long long") (ch "p3") (cName robotName f ++ ch "_SZ_IW"),
    .array (ch "double") (ch "p4") (cName robotName f ++ ch "_SZ_W"), inputDecl (ch "input_") (f.args.map ch), .outputs (ch "output_") [ch "buffer"],
    .call (cName robotName f) [ch "input_", ch "output_", ch "p3", ch "p4", ['0']], .ret (getterOf f).type (ch "buffer")]

theorem evaluates_stmts (robotName : List Char) (f : FunObj) : Evaluates (stmtsOf robotName f) (getterOf f) (cName robotName f) (f.args.map ch) := by
  refine ⟨ch "input_", ch "output_", ch "p3", ch "p4", ch "buffer",
    [.array (ch "double") (ch "buffer") (Nat.toDigits 10 (f.rows * f.cols)), .array (ch "long long") (ch "p3") (cName robotName f ++ ch "_SZ_IW"),
      .array (ch "double") (ch "p4") (cName robotName f ++ ch "_SZ_W"), inputDecl (ch "input_") (f.args.map ch), .outputs (ch "output_") [ch "buffer"]],
    by decide +kernel, rfl, ?_, ?_⟩
  · simp only [getterOf]
    generalize Stmt.array (ch "double") (ch "buffer") (Nat.toDigits 10 (f.rows * f.cols)) = a
    generalize Stmt.array (ch "long long") (ch "p3") (cName robotName f ++ ch "_SZ_IW") = b
    generalize Stmt.array (ch "double") (ch "p4") (cName robotName f ++ ch "_SZ_W") = c
    generalize inputDecl (ch "input_") (f.args.map ch) = d
    generalize Stmt.outputs (ch "output_") [ch "buffer"] = e
    have : [a, b, c, d, e] = [a] ++ ([b, c] ++ [d, e]) := rfl
    rw [this]
    have : [d, e, b, c, a] = ([d, e] ++ [b, c]) ++ [a] := rfl
    rw [this]
    exact (List.perm_append_comm).trans (List.Perm.append_right _ List.perm_append_comm)
  · simp only [getterOf]
    exact .cons_cons _ (.cons _ (.cons _ (.cons _ (.cons_cons _ .slnil))))

/-- Lines inserted into the source for a function. -/
def sourceBlock (robotName dst : List Char) (f : FunObj) : List (List Char) :=
  (ch "// - " ++ ch f.descr ++ ch " - //") :: (retType f ++ ch " thunder_" ++ dst ++ ch "::get_" ++ ch f.name ++ ch "(){") ::
    ((stmtsOf robotName f).map (fun s => '\t' :: s.text) ++ ['}'] :: [[]])

theorem commas_cons (a : List Char) (l : List (List Char)) : commas (a :: l) = a ++ l.flatMap (fun a => ", ".toList ++ a) := by
  induction l generalizing a with
  | nil => simp [commas, List.intercalate]
  | cons b l ih =>
    have : commas (a :: b :: l) = a ++ (", ".toList ++ commas (b :: l)) := by
      simp [commas, List.intercalate, List.intersperse]
    rw [this, ih b, List.flatMap_cons]
    simp

theorem inputs_text (name : List Char) (elems : List (List Char)) :
    (Stmt.inputs name elems).text = "const double* ".toList ++ name ++ "[] = {".toList ++ commas elems ++ "};".toList := rfl

theorem inputText_abs {hd c nm op cm da cl cl' : List Char} {tl : Stmt} {f : String → List Char} (a : String) (l : List String)
    (h1 : hd = '\t' :: (c ++ nm ++ op)) (h2 : cl' = cl ++ ['\n']) (ht : tl.text = c ++ nm ++ op ++ ((f a ++ da) ++ l.flatMap (fun a => cm ++ (f a ++ da))) ++ cl) :
    hd ++ f a ++ da ++ l.flatMap (fun a => cm ++ f a ++ da) ++ cl' = ('\t' :: tl.text) ++ ['\n'] := by
  subst h1 h2
  rw [ht]
  simp only [List.append_assoc, List.cons_append]

theorem inputText_eq (l : List String) : inputText l = ('\t' :: (inputDecl (ch "input_") (l.map ch)).text) ++ ['\n'] := by
  rcases l with _ | ⟨a, l⟩
  · have h : ch "\tconst double** input_ = nullptr;\n" = ('\t' :: ("const double** ".toList ++ ch "input_" ++ " = nullptr;".toList)) ++ ['\n'] := by
      decide +kernel
    exact h
  · have h : inputDecl (ch "input_") ((a :: l).map ch) = .inputs (ch "input_") (((a :: l).map ch).map (· ++ ".data()".toList)) := if_neg (by simp)
    have h1 : ch "\tconst double* input_[] = {" = '\t' :: ("const double* ".toList ++ ch "input_" ++ "[] = {".toList) := by decide +kernel
    have h2 : ch "};\n" = "};".toList ++ ['\n'] := by decide +kernel
    refine inputText_abs (f := ch) a l h1 h2 ?_
    rewrite [h]
    refine (inputs_text _ _).trans (congrArg (fun x => "const double* ".toList ++ ch "input_" ++ "[] = {".toList ++ x ++ "};".toList) ?_)
    refine (commas_cons _ _).trans (congrArg (fun x => (ch a ++ ".data()".toList) ++ x) ?_)
    rewrite [List.flatMap_map, List.flatMap_map]
    exact rfl

theorem sourceFun_abs {x1 x2 x3 x4 x5 x6 x7 x8 x9 x10 y1 y2 y3 y4 y5 y6 y7 y8 y9 y10 : List Char} {nl : List Char}
    (h1 : x1 = y1 ++ nl) (h2 : x2 = y2 ++ nl) (h3 : x3 = y3 ++ nl) (h4 : x4 = y4 ++ nl) (h5 : x5 = y5 ++ nl) (h6 : x6 = y6 ++ nl) (h7 : x7 = y7 ++ nl)
    (h8 : x8 = y8 ++ nl) (h9 : x9 = y9 ++ nl) (h10 : x10 = y10 ++ nl ++ nl) :
    x1 ++ x2 ++ x3 ++ x4 ++ x5 ++ x6 ++ x7 ++ x8 ++ x9 ++ x10 = [y1, y2, y3, y4, y5, y6, y7, y8, y9, y10, []].flatMap (fun l => l ++ nl) := by
  subst h1 h2 h3 h4 h5 h6 h7 h8 h9 h10
  simp only [List.flatMap_cons, List.flatMap_nil, List.append_assoc, List.nil_append, List.append_nil]

theorem sourceFun_eq (robotName dst : List Char) (f : FunObj) :
    sourceFun robotName dst f = (sourceBlock robotName dst f).flatMap (fun l => l ++ ['\n']) := by
  have hA : ∀ {a b c d e : List Char}, c = d ++ e → a ++ b ++ c = a ++ b ++ d ++ e := by
    intro a b c d e h; rw [h]; simp only [List.append_assoc]
  have hB : ∀ {a b p q c d e : List Char}, c = d ++ e → a ++ b ++ p ++ q ++ b ++ c = a ++ b ++ p ++ q ++ b ++ d ++ e := by
    intro a b p q c d e h; rw [h]; simp only [List.append_assoc]
  refine sourceFun_abs (nl := ['\n']) ?_ ?_ ?_ ?_ ?_ (inputText_eq f.args) ?_ ?_ ?_ ?_
  · have h1 : ch " - //\n" = ch " - //" ++ ['\n'] := by decide +kernel
    exact hA h1
  · have h2 : ch "(){\n" = ch "(){" ++ ['\n'] := by decide +kernel
    have : ∀ {a b c d e g x y : List Char}, x = y ++ ['\n'] → a ++ b ++ c ++ d ++ e ++ x = a ++ b ++ c ++ d ++ e ++ y ++ ['\n'] := by
      intro a b c d e g x y h; rw [h]; simp only [List.append_assoc]
    exact this (g := []) h2
  · have h3 : ch "\tthread_local double buffer[" = '\t' :: ("thread_local ".toList ++ ch "double" ++ " ".toList ++ ch "buffer" ++ "[".toList) := by decide +kernel
    have h4 : ch "];\n" = "];".toList ++ ['\n'] := by decide +kernel
    have : ∀ {x a b c d e g y z k : List Char}, x = '\t' :: (a ++ b ++ c ++ d ++ e) → y = z ++ ['\n'] → g = k →
        x ++ g ++ y = ('\t' :: (a ++ b ++ c ++ d ++ e ++ k ++ z)) ++ ['\n'] := by
      intro x a b c d e g y z k h h' h''; rw [h, h', h'']; simp only [List.append_assoc, List.cons_append]
    exact this h3 h4 (dec_eq _)
  · have h5 : ch "\tthread_local long long p3[" = '\t' :: ("thread_local ".toList ++ ch "long long" ++ " ".toList ++ ch "p3" ++ "[".toList) := by decide +kernel
    have h6 : ch "_fun_SZ_IW];\n" = ch "_fun" ++ ch "_SZ_IW" ++ "];".toList ++ ['\n'] := by decide +kernel
    have : ∀ {x a b c d e r u n s w y z : List Char}, x = '\t' :: (a ++ b ++ c ++ d ++ e) → y = s ++ w ++ z ++ ['\n'] →
        x ++ r ++ u ++ n ++ y = ('\t' :: (a ++ b ++ c ++ d ++ e ++ (r ++ u ++ n ++ s ++ w) ++ z)) ++ ['\n'] := by
      intro x a b c d e r u n s w y z h h'; rw [h, h']; simp only [List.append_assoc, List.cons_append]
    exact this h5 h6
  · have h5 : ch "\tthread_local double p4[" = '\t' :: ("thread_local ".toList ++ ch "double" ++ " ".toList ++ ch "p4" ++ "[".toList) := by decide +kernel
    have h6 : ch "_fun_SZ_W];\n" = ch "_fun" ++ ch "_SZ_W" ++ "];".toList ++ ['\n'] := by decide +kernel
    have : ∀ {x a b c d e r u n s w y z : List Char}, x = '\t' :: (a ++ b ++ c ++ d ++ e) → y = s ++ w ++ z ++ ['\n'] →
        x ++ r ++ u ++ n ++ y = ('\t' :: (a ++ b ++ c ++ d ++ e ++ (r ++ u ++ n ++ s ++ w) ++ z)) ++ ['\n'] := by
      intro x a b c d e r u n s w y z h h'; rw [h, h']; simp only [List.append_assoc, List.cons_append]
    exact this h5 h6
  · have h9 : ch "\tdouble* output_[] = {buffer};\n" = ('\t' :: ("double* ".toList ++ ch "output_" ++ "[] = {".toList ++ commas [ch "buffer"] ++ "};".toList)) ++ ['\n'] := by
      decide +kernel
    exact h9
  · have h10 : ch "\tint check = " = '\t' :: "int check = ".toList := by decide +kernel
    have h11 : ch "_fun(input_, output_, p3, p4, 0);\n" =
        ch "_fun" ++ "(".toList ++ commas [ch "input_", ch "output_", ch "p3", ch "p4", ['0']] ++ ");".toList ++ ['\n'] := by
      decide +kernel
    have : ∀ {x a r u n y b c d e : List Char}, x = '\t' :: a → y = b ++ c ++ d ++ e ++ ['\n'] →
        x ++ r ++ u ++ n ++ y = ('\t' :: (a ++ (r ++ u ++ n ++ b) ++ c ++ d ++ e)) ++ ['\n'] := by
      intro x a r u n y b c d e h h'; rw [h, h']; simp only [List.append_assoc, List.cons_append]
    exact this h10 h11
  · have h12 : ch "\treturn Eigen::Map<" = '\t' :: "return Eigen::Map<".toList := by decide +kernel
    have h13 : ch ">(buffer);\n" = ">(".toList ++ ch "buffer" ++ ");".toList ++ ['\n'] := by decide +kernel
    have : ∀ {x a t t' y b c d : List Char}, x = '\t' :: a → y = b ++ c ++ d ++ ['\n'] → t' = t →
        x ++ t ++ y = ('\t' :: (a ++ t' ++ b ++ c ++ d)) ++ ['\n'] := by
      intro x a t t' y b c d h h' h''; rw [h, h', h'']; simp only [List.append_assoc, List.cons_append]
    exact this h12 h13 (type_getterOf f)
  · decide +kernel

theorem sourceFuns_eq (robotName dst : List Char) (fs : List FunObj) :
    sourceFuns robotName dst fs = unlines ([] :: (fs.flatMap (sourceBlock robotName dst) ++ [[]])) := by
  rw [← List.cons_append, unlines_concat, List.append_nil]
  have h3 : ch "\n" = ['\n'] := by decide +kernel
  rw [sourceFuns, h3, List.flatMap_cons, List.flatMap_assoc]
  congr 1
  exact congrArg (fun g => List.flatMap g fs) (funext fun f => sourceFun_eq robotName dst f)

/-- No newline and no hash in the statements. -/
theorem repOk_stmts {robotName : List Char} {f : FunObj} (hr : RepOk robotName) (hf : FunOk f) : ∀ s ∈ stmtsOf robotName f, RepOk s.text := by
  have hlit : ∀ s : String, ((ch s).all fun c => c != '\n' && c != '#') = true → RepOk (ch s) := by
    intro s h
    rw [List.all_eq_true] at h
    exact ⟨fun hx => by simpa using h _ hx, fun hx => by simpa using h _ hx⟩
  have hc : RepOk (cName robotName f) := repOk_append (repOk_append (repOk_append hr (hlit _ (by decide +kernel))) hf.name) (hlit _ (by decide +kernel))
  have harr : ∀ ty name size, RepOk ty → RepOk name → RepOk size → RepOk (Stmt.array ty name size).text := by
    intro ty name size h1 h2 h3
    exact repOk_append (repOk_append (repOk_append (repOk_append (repOk_append (repOk_append (hlit _ (by decide +kernel)) h1) (hlit _ (by decide +kernel))) h2)
      (hlit _ (by decide +kernel))) h3) (hlit _ (by decide +kernel))
  have hcom : ∀ l, (∀ a ∈ l, RepOk a) → RepOk (commas l) := by
    intro l hl
    rcases l with _ | ⟨a, l⟩
    · exact ⟨by simp [commas, List.intercalate], by simp [commas, List.intercalate]⟩
    · rw [commas_cons]
      exact repOk_append (hl a List.mem_cons_self) (repOk_flatMap fun b hb => repOk_append (hlit _ (by decide +kernel)) (hl b (List.mem_cons_of_mem _ hb)))
  intro s hs
  simp only [stmtsOf, List.mem_cons, List.not_mem_nil, or_false] at hs
  rcases hs with rfl | rfl | rfl | rfl | rfl | rfl | rfl
  · exact harr _ _ _ (hlit _ (by decide +kernel)) (hlit _ (by decide +kernel)) (repOk_digits _)
  · exact harr _ _ _ (hlit _ (by decide +kernel)) (hlit _ (by decide +kernel)) (repOk_append hc (hlit _ (by decide +kernel)))
  · exact harr _ _ _ (hlit _ (by decide +kernel)) (hlit _ (by decide +kernel)) (repOk_append hc (hlit _ (by decide +kernel)))
  · rw [inputDecl]
    split_ifs
    · exact repOk_append (repOk_append (hlit _ (by decide +kernel)) (hlit _ (by decide +kernel))) (hlit _ (by decide +kernel))
    · refine repOk_append (repOk_append (repOk_append (repOk_append (hlit _ (by decide +kernel)) (hlit _ (by decide +kernel))) (hlit _ (by decide +kernel)))
        (hcom _ ?_)) (hlit _ (by decide +kernel))
      intro a ha
      simp only [List.map_map, List.mem_map] at ha
      obtain ⟨b, hb, rfl⟩ := ha
      exact repOk_append (hf.args b hb) (hlit _ (by decide +kernel))
  · refine repOk_append (repOk_append (repOk_append (repOk_append (hlit _ (by decide +kernel)) (hlit _ (by decide +kernel))) (hlit _ (by decide +kernel)))
      (hcom _ ?_)) (hlit _ (by decide +kernel))
    intro a ha
    rw [List.mem_singleton.1 ha]
    exact hlit _ (by decide +kernel)
  · refine repOk_append (repOk_append (repOk_append (repOk_append (hlit _ (by decide +kernel)) hc) (hlit _ (by decide +kernel)))
      (hcom _ ?_)) (hlit _ (by decide +kernel))
    intro a ha
    simp only [List.mem_cons, List.not_mem_nil, or_false] at ha
    rcases ha with rfl | rfl | rfl | rfl | rfl
    exacts [hlit _ (by decide +kernel), hlit _ (by decide +kernel), hlit _ (by decide +kernel), hlit _ (by decide +kernel), ⟨by decide, by decide⟩]
  · rw [type_getterOf]
    exact repOk_append (repOk_append (repOk_append (repOk_append (hlit _ (by decide +kernel)) (repOk_ret f)) (hlit _ (by decide +kernel)))
      (hlit _ (by decide +kernel))) (hlit _ (by decide +kernel))

theorem repOk_sourceBlock {robotName dst : List Char} {f : FunObj} (hr : RepOk robotName) (hd : RepOk dst) (hf : FunOk f) :
    ∀ l ∈ sourceBlock robotName dst f, RepOk l := by
  have h1 : RepOk (ch "// - ") := ⟨by decide +kernel, by decide +kernel⟩
  have h2 : RepOk (ch " - //") := ⟨by decide +kernel, by decide +kernel⟩
  have h3 : RepOk (ch " thunder_") := ⟨by decide +kernel, by decide +kernel⟩
  have h4 : RepOk (ch "::get_") := ⟨by decide +kernel, by decide +kernel⟩
  have h5 : RepOk (ch "(){") := ⟨by decide +kernel, by decide +kernel⟩
  intro l hl
  simp only [sourceBlock, List.mem_cons, List.mem_append, List.not_mem_nil, or_false, List.mem_map] at hl
  rcases hl with rfl | rfl | ⟨s, hs, rfl⟩ | rfl | rfl
  · exact repOk_append (repOk_append h1 hf.descr) h2
  · exact repOk_append (repOk_append (repOk_append (repOk_append (repOk_append (repOk_ret f) h3) hd) h4) hf.name) h5
  · exact repOk_append (l := ['\t']) ⟨by decide, by decide⟩ (repOk_stmts hr hf s hs)
  · exact ⟨by decide, by decide⟩
  · exact ⟨by simp, by simp⟩

theorem defined_append {robot : List Char} {A B : List (List Char)} {ds : List (Getter × List (List Char))} (hA : ∀ l ∈ A, ∀ g, ¬ Opens robot l g)
    (hB : Defined robot B ds) : Defined robot (A ++ B) ds := by
  induction A with
  | nil => exact hB
  | cons l A ih => exact .skip (hA l List.mem_cons_self) (ih fun l hl => hA l (List.mem_cons_of_mem _ hl))

/-- Getter and body lines of a function. -/
def defOf (robotName : List Char) (f : FunObj) : Getter × List (List Char) := (getterOf f, (stmtsOf robotName f).map fun s => '\t' :: s.text)

theorem body_defOf (robotName : List Char) (f : FunObj) : Body (defOf robotName f).2 (getterOf f) (cName robotName f) (f.args.map ch) :=
  ⟨_, rfl, evaluates_stmts robotName f⟩

theorem defined_block {robotName : List Char} {B : List (List Char)} {ds : List (Getter × List (List Char))} (hB : Defined dst B ds) (fs : List FunObj) :
    Defined dst (fs.flatMap (sourceBlock robotName dst) ++ B) (fs.map (defOf robotName) ++ ds) := by
  induction fs with
  | nil => exact hB
  | cons f fs ih =>
    rw [List.flatMap_cons, List.append_assoc, List.map_cons, List.cons_append, sourceBlock, List.cons_append, List.cons_append]
    rw [List.append_assoc (List.map _ _), List.cons_append, List.singleton_append]
    have ho : Opens dst (retType f ++ ch " thunder_" ++ dst ++ ch "::get_" ++ ch f.name ++ ch "(){") (getterOf f) := by
      refine ⟨[], blank_nil, ?_⟩
      rewrite [type_getterOf, List.nil_append]
      exact rfl
    refine .skip (fun g => ?_) (Defined.defn (body := (stmtsOf robotName f).map fun s => '\t' :: s.text) ho (fun b hb => ?_) (.skip (fun g => not_opens_blank blank_nil _ g) ih))
    · exact not_opens (q := ch "// - ") (by decide +kernel) (by rw [List.append_assoc]; exact List.prefix_append _ _) _ g
    · obtain ⟨s, -, rfl⟩ := List.mem_map.1 hb
      intro e
      exact absurd (List.cons.inj e).1 (by decide)

/-! ### The template of the source -/

/-- The patterns of the source. -/
def sourcePats : List (List Char) := [patRobot]

theorem marker_Cpp : Marker ['F', 'G'] patCpp := ⟨['/', '*'], 'F', patCpp.drop 5, by decide +kernel, by decide⟩
theorem marker_Py : Marker ['F', 'G'] patPy := ⟨['/', '*'], 'G', patPy.drop 5, by decide +kernel, by decide⟩

theorem patRobot_ok : PatOk patRobot := patOk_spec (by decide +kernel)
theorem cpp_ne : patCpp ≠ [] := by decide
theorem cpp_nl : '\n' ∉ patCpp := by decide
theorem py_ne : patPy ≠ [] := by decide
theorem py_nl : '\n' ∉ patPy := by decide

set_option maxRecDepth 100000 in
theorem source_lines : (sourceChars.filter fun l => !quiet sourcePats ['F', 'G'] l) = [patCpp] := by decide +kernel

/-- The replacements of the robot name and of the marker of the functions. -/
theorem source_core {robotName : List Char} {L M : List (List Char)} (hd : RepOk dst) (h : (L.filter fun l => !quiet sourcePats ['F', 'G'] l) = patCpp :: M)
    (hM : ∀ m ∈ M, ¬ patRobot <:+: m ∧ ¬ patCpp <:+: m) (fs : List FunObj) :
    ∃ A L' B, (∀ r, ReplaceSeq [(ch "robot", dst), (ch "/*#-FUNCTIONS_CPP-#*/", sourceFuns robotName dst fs)] (unlines L) r ↔
        r = some (unlines (A ++ [] :: (fs.flatMap (sourceBlock robotName dst) ++ [[]] ++ B)))) ∧
      (∀ l ∈ A, Quiet sourcePats ['F', 'G'] l) ∧ List.Forall₂ (Fits sourcePats ['F', 'G']) (kinds sourcePats ['F', 'G'] L') B ∧
      (L'.filter fun l => !quiet sourcePats ['F', 'G'] l) = M := by
  obtain ⟨a, L', hks, hL'⟩ := kinds_cons h
  have hs0 := shape_template (pats := sourcePats) (bad := ['F', 'G']) L
  rw [hks] at hs0
  have hkind : ∀ m, some m ∈ kinds sourcePats ['F', 'G'] L' → m ∈ M := by
    intro m hm
    rw [kinds, List.mem_map] at hm
    obtain ⟨l, hl, e⟩ := hm
    split_ifs at e with hq
    obtain rfl := Option.some.inj e
    rw [← hL', List.mem_filter]
    exact ⟨hl, by simpa using hq⟩
  have hs1 := hs0.repl (pat := patRobot) (rep := dst) (by simp [sourcePats]) patRobot_ok hd (by
    intro m hm
    have : m = patCpp ∨ m ∈ M := by
      simp only [List.mem_append, List.mem_replicate, List.mem_cons, Option.some.injEq] at hm
      rcases hm with hm | hm | hm
      · exact absurd hm.2 (by simp)
      · exact .inl hm
      · exact .inr (hkind m hm)
    rcases this with rfl | hm
    · exact not_occurs (by decide +kernel)
    · exact (hM m hm).1)
  obtain ⟨ls, hls, hF⟩ := hs1
  obtain ⟨A, B, rfl, hA, hB⟩ := shape_split hF
  have hBc : ∀ l ∈ B, ¬ patCpp <:+: l := by
    have : ∀ {ks : List (Option (List Char))} {B : List (List Char)}, List.Forall₂ (Fits sourcePats ['F', 'G']) ks B → (∀ m, some m ∈ ks → ¬ patCpp <:+: m) →
        ∀ l ∈ B, ¬ patCpp <:+: l := by
      intro ks B hB
      induction hB with
      | nil => intro _ l hl; cases hl
      | @cons k l ks B h1 _ ih =>
        intro hk x hx
        rcases List.mem_cons.1 hx with rfl | hx
        · cases k with
          | none => exact Quiet.no_marker h1 marker_Cpp
          | some m => rw [show x = m from h1]; exact hk m List.mem_cons_self
        · exact ih (fun m hm => hk m (List.mem_cons_of_mem _ hm)) x hx
    exact this hB fun m hm => (hM m (hkind m hm)).2
  refine ⟨A, L', B, fun r => ?_, hA, hB, hL'⟩
  rw [replaceSeq_iff (by
    intro q hq
    rw [patRobot_eq, patCpp_eq] at hq
    simp only [List.mem_cons, List.not_mem_nil, or_false] at hq
    rcases hq with rfl | rfl
    · exact patRobot_ok.ne
    · exact cpp_ne)]
  have hm := repl_marker (pat := patCpp) (ws := []) (r₀ := []) (A := A) (B := B) (R := fs.flatMap (sourceBlock robotName dst) ++ [[]]) cpp_ne cpp_nl
    (by intro t ht hs; exact absurd (List.suffix_nil.1 hs) ht) (fun l hl => (hA l hl).no_marker marker_Cpp) hBc
  rw [List.nil_append, List.nil_append, ← hls, ← sourceFuns_eq] at hm
  rw [patRobot_eq, patCpp_eq, List.foldl_cons, List.foldl_cons, List.foldl_nil]
  rw [hm]

/-- The source without bindings: the only outcome, and the defined getters. -/
theorem source_ok (hd : RepOk dst) (hi : InfoOk i) (hf : ∀ f ∈ fs, FunOk f) :
    ∃ t, (∀ o, Source (ch "robot") dst i fs false sourceFile o ↔ o = .ok t) ∧ Defined dst (textLines t) (fs.map (defOf i.robotName)) := by
  obtain ⟨A, L', B, h1, hA, hB, hL'⟩ := source_core (robotName := i.robotName) hd source_lines (by simp) fs
  rw [← sourceLines_eq] at h1
  replace h1 : ∀ r, ReplaceSeq _ sourceFile r ↔ _ := h1
  rw [kinds_nil hL'] at hB
  replace hB := shape_replicate hB
  have h0 : ∀ r, ReplaceSeq (if false = true then bindingSubst else []) sourceFile r ↔ r = some sourceFile := by
    intro r
    rw [if_neg (by simp)]
    exact replaceSeq_iff (by simp)
  refine ⟨unlines (A ++ [] :: (fs.flatMap (sourceBlock i.robotName dst) ++ [[]] ++ B)), fun o => ⟨fun h => ?_, ?_⟩, ?_⟩
  rotate_right
  · rw [textLines_unlines (ls := A ++ [] :: (fs.flatMap (sourceBlock i.robotName dst) ++ [[]] ++ B)) ?_ (by simp)]
    · refine defined_append (fun l hl g => (hA l hl).not_opens _ g) (.skip (fun g => not_opens_blank blank_nil _ g) ?_)
      rw [List.append_assoc]
      have := defined_block (robotName := i.robotName) (B := [[]] ++ B) (ds := []) (dst := dst) (.skip (fun g => not_opens_blank blank_nil _ g) ?_) fs
      · rwa [List.append_nil] at this
      · have := defined_append (robot := dst) (A := B) (B := []) (fun l hl g => (hB l hl).not_opens _ g) .nil
        rwa [List.append_nil] at this
    · intro l hl
      simp only [List.mem_append, List.mem_cons, List.not_mem_nil, or_false, List.mem_flatMap] at hl
      rcases hl with hl | rfl | (⟨f, hf', hl⟩ | rfl) | hl
      · exact (hA l hl).nl
      · simp
      · exact (repOk_sourceBlock hi.name hd (hf f hf') l hl).nl
      · simp
      · exact (hB l hl).nl
  · cases h with
    | bind h => rw [h0] at h; cases h
    | subst h h' => rw [h0] at h; obtain rfl := Option.some.inj h; rw [h1] at h'; cases h'
    | pop _ _ h => cases h
    | last _ _ h => cases h
    | okPy _ _ h => cases h
    | ok h h' => rw [h0] at h; obtain rfl := Option.some.inj h; rw [h1] at h'; rw [Option.some.inj h']
  · rintro rfl
    exact .ok ((h0 _).2 rfl) ((h1 _).2 rfl) rfl

end Thunder.Text
