import Verif.Lemmas.Instantiate
import Verif.Spec.Header

/-!
# The lines of the generated header
-/

namespace Thunder.Text

open Spec

variable {pat rep s l m p q t x y dst : List Char} {i : Info} {fs : List FunObj} {ps : List (List Char × List Char)} {ls : List (List Char)}

/-! ## Lines -/

theorem textLines_append (a b : List Char) : textLines (a ++ '\n' :: b) = textLines a ++ textLines b := by
  show List.splitOnP (fun x => x == '\n') _ = _
  exact List.splitOnP_append_cons _ _ (by decide)

theorem textLines_line (h : '\n' ∉ l) : textLines l = [l] := by
  show List.splitOnP (fun x => x == '\n') _ = _
  exact List.splitOnP_eq_singleton fun c hc => by
    rw [beq_eq_false_iff_ne]
    rintro rfl
    exact h hc

theorem textLines_flat : ∀ {L : List (List Char)}, L ≠ [] → textLines (unlines L) = L.flatMap textLines
  | [], h => absurd rfl h
  | [l], _ => by rw [unlines_singleton]; simp
  | l :: m :: L, _ => by
    rw [unlines_cons (by simp), textLines_append, textLines_flat (by simp), List.flatMap_cons (x := l)]

theorem unlines_textLines (t : List Char) : unlines (textLines t) = t := List.intercalate_splitOn _

theorem textLines_ne (t : List Char) : textLines t ≠ [] := List.splitOnP_ne_nil _ _

theorem textLines_repl (hp : pat ≠ []) (hn : '\n' ∉ pat) : textLines (repl pat rep t) = (textLines t).flatMap fun l => textLines (repl pat rep l) := by
  conv_lhs => rw [← unlines_textLines t, repl_unlines hp hn, textLines_flat (by simpa using textLines_ne t), List.flatMap_map]

/-! ## Several replacements -/

/-- Several replacements, one after the other. -/
noncomputable def fills (ps : List (List Char × List Char)) (s : List Char) : List Char := ps.foldl (fun s p => repl p.1 p.2 s) s

theorem fills_cons {p : List Char × List Char} : fills (p :: ps) s = fills ps (repl p.1 p.2 s) := rfl

theorem fills_append {ps' : List (List Char × List Char)} : fills (ps ++ ps') s = fills ps' (fills ps s) := List.foldl_append ..

theorem textLines_fills (h : ∀ p ∈ ps, p.1 ≠ [] ∧ '\n' ∉ p.1) (t : List Char) : textLines (fills ps t) = (textLines t).flatMap fun l => textLines (fills ps l) := by
  induction ps generalizing t with
  | nil =>
    show textLines t = (textLines t).flatMap textLines
    conv_lhs => rw [← unlines_textLines t, textLines_flat (textLines_ne t)]
  | cons p ps ih =>
    have ih := fun t => ih (fun q hq => h q (List.mem_cons_of_mem _ hq)) t
    have h1 := h p List.mem_cons_self
    rw [fills_cons, ih, textLines_repl h1.1 h1.2, List.flatMap_assoc]
    exact congrArg (fun g => List.flatMap g (textLines t)) (funext fun l => by rw [fills_cons, ← ih])

theorem fills_still (h : ∀ p ∈ ps, p.1 ≠ [] ∧ ¬ p.1 <:+: l) : fills ps l = l := by
  induction ps with
  | nil => rfl
  | cons p ps ih =>
    have h1 := h p List.mem_cons_self
    rw [fills_cons, repl_none h1.1 h1.2]
    exact ih fun q hq => h q (List.mem_cons_of_mem _ hq)

/-- Patterns with `#` do nothing in a text without `#`. -/
theorem fills_hash (h : ∀ p ∈ ps, '#' ∈ p.1) (hl : '#' ∉ l) : fills ps l = l :=
  fills_still fun p hp => ⟨(fun e => by have := h p hp; rw [e] at this; cases this), fun hi => hl (hi.subset (h p hp))⟩

theorem fills_stable (h : ∀ q ∈ ps, q.1 ≠ [] ∧ Stable q.1 p) : fills ps (p ++ s) = p ++ fills ps s := by
  induction ps generalizing s with
  | nil => rfl
  | cons q ps ih =>
    have h1 := h q List.mem_cons_self
    rw [fills_cons, repl_stable h1.1 h1.2]
    exact ih fun q hq => h q (List.mem_cons_of_mem _ hq)

/-! ## Markers -/

/-- A pattern with its first `#` at the third position. -/
def IsMark (pat : List Char) : Prop := ∃ r, pat = '/' :: '*' :: '#' :: r

/-- The first marker in a text is found. -/
theorem repl_mark (hm : IsMark pat) (hx : '#' ∉ x) : repl pat rep (x ++ pat ++ s) = x ++ rep ++ repl pat rep s := by
  obtain ⟨r, rfl⟩ := hm
  refine repl_eq (by simp) (Replaced.occ (fun pre post e => ?_) (repl_spec (by simp)))
  by_contra hc
  rw [not_le] at hc
  -- the `#` of the earlier occurrence lies before that of the marker
  have e1 : (x ++ '/' :: '*' :: '#' :: r ++ s)[pre.length + 2]? = some '#' := by
    rw [e, List.append_assoc, List.getElem?_append_right (by omega)]
    simp
  have e2 : (x ++ ['/', '*'] ++ '#' :: (r ++ s))[pre.length + 2]? = some '#' := by rw [← e1]; simp
  rw [List.getElem?_append_left (by simp; omega)] at e2
  have := List.mem_of_getElem? e2
  simp at this
  exact hx this

theorem split_hash : ∀ {a b c d : List Char}, '#' ∉ a → '#' ∉ b → a ++ '#' :: c = b ++ '#' :: d → a = b ∧ c = d
  | [], [], _, _, _, _, e => ⟨rfl, (List.cons.inj e).2⟩
  | [], x :: b, _, _, _, hb, e => absurd (show '#' ∈ x :: b by rw [← (List.cons.inj e).1]; exact List.mem_cons_self) hb
  | x :: a, [], _, _, ha, _, e => absurd (show '#' ∈ x :: a by rw [(List.cons.inj e).1]; exact List.mem_cons_self) ha
  | x :: a, y :: b, _, _, ha, hb, e => by
    obtain ⟨rfl, e0⟩ := List.cons.inj e
    obtain ⟨rfl, e'⟩ := split_hash (fun h => ha (List.mem_cons_of_mem _ h)) (fun h => hb (List.mem_cons_of_mem _ h)) e0
    exact ⟨rfl, e'⟩

/-- A marker: two `#`, after `/*` and before `*/`. -/
def IsMark2 (pat : List Char) : Prop := ∃ r, '#' ∉ r ∧ pat = ['/', '*'] ++ '#' :: (r ++ '#' :: ['*', '/'])

/-- No other marker occurs in a text with one marker. -/
theorem infix_marked {z m q : List Char} (hx : '#' ∉ x) (hz : '#' ∉ z) (hq : IsMark2 q) (hm : IsMark2 m) (hne : q ≠ m) : ¬ q <:+: x ++ m ++ z := by
  rintro ⟨pre, post, e⟩
  obtain ⟨r, hr, rfl⟩ := hq
  obtain ⟨r', hr', rfl⟩ := hm
  have hc := congrArg (List.count '#') e
  have c0 : ∀ {l : List Char}, '#' ∉ l → List.count '#' l = 0 := fun h => List.count_eq_zero.2 h
  simp only [List.count_append, List.count_cons_self, c0 hx, c0 hz, c0 hr, c0 hr', List.count_cons, List.count_nil] at hc
  have hpre : '#' ∉ pre := by
    rw [← List.count_eq_zero]
    simp at hc
    omega
  have e1 : (pre ++ ['/', '*']) ++ '#' :: (r ++ '#' :: (['*', '/'] ++ post)) = (x ++ ['/', '*']) ++ '#' :: (r' ++ '#' :: (['*', '/'] ++ z)) := by
    simpa using e
  have e2 := (split_hash (by simp [hpre]) (by simp [hx]) e1).2
  have e3 := (split_hash hr hr' e2).1
  exact hne (by rw [e3])

/-- A line with one marker. -/
theorem fills_one {A B : List (List Char × List Char)} (hA : ∀ p ∈ A, p.1 ≠ [] ∧ ¬ p.1 <:+: x ++ pat ++ y) (hm : IsMark pat) (hx : '#' ∉ x) (hy : '#' ∉ y)
    (hr : '#' ∉ rep) (hB : ∀ p ∈ B, '#' ∈ p.1) : fills (A ++ (pat, rep) :: B) (x ++ pat ++ y) = x ++ rep ++ y := by
  have hh : '#' ∈ pat := by obtain ⟨r, rfl⟩ := hm; simp
  have hp : pat ≠ [] := by obtain ⟨r, rfl⟩ := hm; simp
  rw [fills_append, fills_still hA, fills_cons, repl_mark hm hx, repl_none hp fun hi => hy (hi.subset hh)]
  exact fills_hash hB (by simp [hx, hr, hy])

/-! ## Lines that declare no constant -/

/-- The beginning of the declaration of a constant. -/
def constHead : List Char := ['c', 'o', 'n', 's', 't', ' ']

theorem constHead_eq : "const ".toList = constHead := by decide +kernel

/-- What begins with `q` is no declaration of a constant. -/
def neverConst (q : List Char) : Bool :=
  let p := q.dropWhile isBlank
  !(p.isPrefixOf constHead) && !(constHead.isPrefixOf p)

theorem not_const (h : neverConst q = true) (hq : q <+: l) (k : Const) : ¬ DeclaresConst l k := by
  rintro ⟨ws, hw, -, -, e⟩
  rw [constHead_eq] at e
  simp only [List.append_assoc] at e
  generalize k.type ++ _ = t at e
  subst e
  simp only [neverConst, Bool.and_eq_true, Bool.not_eq_true'] at h
  obtain ⟨h1, h2⟩ := h
  replace h1 := not_isPrefixOf h1
  replace h2 := not_isPrefixOf h2
  have key : q.dropWhile isBlank <+: constHead ++ t := by
    rcases List.prefix_or_prefix_of_prefix hq (List.prefix_append ws _) with hx | hx
    · have : q.dropWhile isBlank = [] := by
        rw [dropWhile_nil]
        intro c hc
        simpa [isBlank] using hw c (hx.subset hc)
      rw [this]; exact List.nil_prefix
    · obtain ⟨q', rfl⟩ := hx
      rw [List.prefix_append_right_inj] at hq
      have e : (ws ++ q').dropWhile isBlank = q'.dropWhile isBlank := by
        rw [List.dropWhile_append]
        have : ws.dropWhile isBlank = [] := by
          rw [dropWhile_nil]
          intro c hc
          simpa [isBlank] using hw c hc
        rw [this]; rfl
      rw [e]
      rcases q' with _ | ⟨c, q'⟩
      · exact List.nil_prefix
      · have hc : c = 'c' := by
          obtain ⟨u, hu⟩ := hq
          exact (List.cons.inj hu).1
        subst hc
        exact hq
  rcases List.prefix_or_prefix_of_prefix key (List.prefix_append constHead _) with hx | hx
  · exact h1 hx
  · exact h2 hx

theorem not_const_blank (h : Blank l) (k : Const) : ¬ DeclaresConst l k := by
  rintro ⟨ws, -, -, -, e⟩
  rw [constHead_eq] at e
  have := h 'c' (by rw [e]; simp [constHead])
  revert this
  decide

/-! ## The replacements of the header -/

/-- The replacements of the header, in order. -/
def headerFill (dst : List Char) (i : Info) (e : List Char) (fs : List FunObj) : List (List Char × List Char) :=
  [(patRobot, dst), (patName, i.robotName), (patN, dec i.n), (patEla, if i.elastic then ch "1" else ch "0"), (patNe, dec i.ne), (patK, decI i.kI),
    (patD, decI i.dI), (patDl, decI i.dlI), (patDm, decI i.dmI), (patIs, e), (patH, headerFuns fs)]

/-- Their patterns. -/
def fillPats : List (List Char) := [patRobot, patName, patN, patEla, patNe, patK, patD, patDl, patDm, patIs, patH]

theorem fst_headerFill (dst : List Char) (i : Info) (e : List Char) (fs : List FunObj) : (headerFill dst i e fs).map Prod.fst = fillPats := rfl

theorem mem_fillPats {e : List Char} {p : List Char × List Char} (h : p ∈ headerFill dst i e fs) : p.1 ∈ fillPats :=
  fst_headerFill dst i e fs ▸ List.mem_map.2 ⟨p, h, rfl⟩

theorem fillPats_ok : ∀ q ∈ fillPats, q ≠ [] ∧ '\n' ∉ q := by decide +kernel

theorem fillPats_hash : ∀ q ∈ fillPats.tail, '#' ∈ q := by decide +kernel

/-- What lies between the two `#`. -/
def inner (pat : List Char) : List Char := (pat.drop 3).take (pat.length - 6)

theorem mark2_of (h : (!(inner pat).contains '#' && pat == ['/', '*'] ++ '#' :: (inner pat ++ '#' :: ['*', '/'])) = true) : IsMark2 pat := by
  simp only [Bool.and_eq_true, Bool.not_eq_true'] at h
  exact ⟨inner pat, by simpa using h.1, by simpa using h.2⟩

theorem fillPats_mark : ∀ q ∈ fillPats.tail, IsMark2 q := by
  have : (fillPats.tail.all fun pat => !(inner pat).contains '#' && pat == ['/', '*'] ++ '#' :: (inner pat ++ '#' :: ['*', '/'])) = true := by decide +kernel
  exact fun q hq => mark2_of (List.all_eq_true.1 this q hq)

theorem hash_tail {e : List Char} {p : List Char × List Char} (h : p ∈ (headerFill dst i e fs).tail) : '#' ∈ p.1 := by
  refine fillPats_hash _ ?_
  rw [← fst_headerFill dst i e fs, ← List.map_tail]
  exact List.mem_map.2 ⟨p, h, rfl⟩

theorem fill_robot {e : List Char} (hl : '#' ∉ l) (hd : '#' ∉ dst) : fills (headerFill dst i e fs) l = repl patRobot dst l := by
  show fills ((headerFill dst i e fs).tail) (repl patRobot dst l) = _
  exact fills_hash (fun p hp => hash_tail hp) fun h => (mem_repl (by decide) h).elim hl hd

/-- A line of the template without constant, whatever the replacements. -/
def plainLine (l : List Char) : Bool :=
  !l.contains '\n' && ((fillPats.all (fun q => !occurs q l) && (l.all isBlank || neverConst l)) ||
    (!l.contains '#' && (List.range (l.length + 1)).any fun k => stable patRobot (l.take k) && neverConst (l.take k)))

theorem plain_line {e : List Char} (h : plainLine l = true) (hd : RepOk dst) :
    ∃ l', textLines (fills (headerFill dst i e fs) l) = [l'] ∧ ∀ k, ¬ DeclaresConst l' k := by
  simp only [plainLine, Bool.and_eq_true, Bool.or_eq_true, Bool.not_eq_true', List.any_eq_true] at h
  obtain ⟨h1, h2⟩ := h
  have h1 : '\n' ∉ l := by simpa using h1
  rcases h2 with ⟨h2, h3⟩ | ⟨h2, k, -, h3, h4⟩
  · have hs : fills (headerFill dst i e fs) l = l := fills_still fun p hp => ⟨(fillPats_ok _ (mem_fillPats hp)).1, not_occurs (by
      simpa using List.all_eq_true.1 h2 _ (mem_fillPats hp))⟩
    refine ⟨l, by rw [hs, textLines_line h1], fun k => ?_⟩
    rcases h3 with h3 | h3
    · exact not_const_blank (blank_iff.2 h3) k
    · exact not_const h3 List.prefix_rfl k
  · rw [fill_robot (by simpa using h2) hd.hash]
    refine ⟨_, textLines_line fun hx => (mem_repl (by decide) hx).elim h1 hd.nl, fun k' => not_const h4 ?_ k'⟩
    conv_rhs => rw [← List.take_append_drop k l]
    rw [repl_stable (by decide) (stable_spec h3)]
    exact List.prefix_append _ _

/-! ## The template -/

/-- The lines `a`, …, `b - 1` of the template. -/
def seg (a b : ℕ) : List (List Char) := (headerChars.drop a).take (b - a)

theorem header_split : headerChars =
    [ch "#ifndef " ++ patGuard ++ ch "_H", ch "#define " ++ patGuard ++ ch "_H"] ++ (seg 2 18 ++ ([ch "\t\tconst int STD_PAR_LINK = 10;"] ++ (seg 19 52 ++
    ([ch "\t\tconst std::string " ++ patRobot ++ ch "Name = \"" ++ patName ++ ch "\";", ch "\t\tconst int n_joints = " ++ patN ++ ch ";",
      ch "\t\tconst bool ELASTIC = " ++ patEla ++ ch ";", ch "\t\tconst int numElasticJoints = " ++ patNe ++ ch ";",
      ch "\t\tconst int K_order = " ++ patK ++ ch ";", ch "\t\tconst int D_order = " ++ patD ++ ch ";",
      ch "\t\tconst int Dl_order = " ++ patDl ++ ch ";", ch "\t\tconst int Dm_order = " ++ patDm ++ ch ";",
      ch "\t\tconst int numParDYN = STD_PAR_LINK*n_joints;", ch "\t\tconst int numParREG = STD_PAR_LINK*n_joints;"] ++ (seg 62 63 ++
    ([ch "\t\tconst int isElasticJoint[" ++ patN ++ ch "] = " ++ patIs ++ ch ";"] ++ (seg 64 133 ++ ([ch "\t\t" ++ patH] ++ (seg 134 136 ++
    [ch "#endif"]))))))))) := by decide +kernel

theorem plain_segs : ((seg 2 18 ++ seg 19 52 ++ seg 62 63 ++ seg 64 133 ++ seg 134 136).all plainLine) = true := by decide +kernel

/-! ## The constants -/

theorem Constants.append {A B : List (List Char)} {a b : List Const} (hA : Constants A a) (hB : Constants B b) : Constants (A ++ B) (a ++ b) := by
  induction hA with
  | nil => exact hB
  | skip h _ ih => exact .skip h ih
  | decl h _ ih => exact .decl h ih

theorem constants_plain {e : List Char} (h : ∀ l ∈ ls, plainLine l = true) (hd : RepOk dst) :
    Constants (ls.flatMap fun l => textLines (fills (headerFill dst i e fs) l)) [] := by
  induction ls with
  | nil => exact .nil
  | cons l ls ih =>
    rw [List.flatMap_cons]
    obtain ⟨l', e', h'⟩ := plain_line (i := i) (e := e) (fs := fs) (h l List.mem_cons_self) hd
    rw [e']
    exact .skip h' (ih fun l hl => h l (List.mem_cons_of_mem _ hl))

/-- The text of a constant in the template. -/
def constText (ty name value : List Char) : List Char := ch "\t\tconst " ++ ty ++ [' '] ++ name ++ ch " = " ++ value ++ [';']

theorem declares_text {ty name value : List Char} (h1 : ' ' ∉ ty) (h2 : ' ' ∉ name) : DeclaresConst (constText ty name value) ⟨ty, name, value⟩ := by
  refine ⟨ch "\t\t", blank_tabs, h1, h2, ?_⟩
  have e1 : ch "\t\tconst " = ch "\t\t" ++ "const ".toList := by decide +kernel
  have e2 : [' '] = " ".toList := by decide +kernel
  have e3 : [';'] = ";".toList := by decide +kernel
  unfold constText
  rw [e1, e2, e3]

theorem numeral_dec (n : ℕ) : dec n = numeral n := dec_eq n

theorem numeral_decI (z : ℤ) : decI z = numeral z := by
  cases z with
  | ofNat n => exact dec_eq n
  | negSucc n =>
    show (toString (Int.negSucc n)).toList = _
    have e : toString (Int.negSucc n) = "-" ++ toString (n + 1) := rfl
    rw [e, String.toList_append]
    exact congrArg (fun x => '-' :: x) (dec_eq (n + 1))

theorem elasticText_eq {n : ℕ} {l : List ℤ} (hn : 0 < n) (hl : n ≤ l.length) :
    elasticText l n = some (ch "{" ++ commas ((l.take n).map numeral) ++ ch "}") := by
  rcases l with _ | ⟨z, l⟩
  · simp at hl; omega
  · obtain ⟨n, rfl⟩ : ∃ k, n = k + 1 := ⟨n - 1, by omega⟩
    have hl' : n + 1 - 1 ≤ l.length := by simp at hl ⊢; omega
    rw [elasticText, if_pos hl', List.take_succ_cons, List.map_cons, commas_cons, Nat.add_sub_cancel, List.flatMap_map, numeral_decI]
    have : (fun z : ℤ => ch ", " ++ decI z) = fun z => ", ".toList ++ numeral z := funext fun z => by rw [numeral_decI]
    rw [this]
    simp only [List.append_assoc]

/-- The constants of the class. -/
def constsOf (dst : List Char) (i : Info) : List Const :=
  [⟨ch "int", ch "STD_PAR_LINK", ch "10"⟩, ⟨ch "std::string", dst ++ ch "Name", ch "\"" ++ i.robotName ++ ch "\""⟩, intConst "n_joints" i.n,
    ⟨ch "bool", ch "ELASTIC", if i.elastic then ch "1" else ch "0"⟩, intConst "numElasticJoints" i.ne, intConst "K_order" i.kI, intConst "D_order" i.dI,
    intConst "Dl_order" i.dlI, intConst "Dm_order" i.dmI, ⟨ch "int", ch "numParDYN", ch "STD_PAR_LINK*n_joints"⟩,
    ⟨ch "int", ch "numParREG", ch "STD_PAR_LINK*n_joints"⟩,
    ⟨ch "int", ch "isElasticJoint[" ++ numeral i.n ++ ch "]", ch "{" ++ commas ((i.isEla.take i.n).map numeral) ++ ch "}"⟩]

theorem isMark_of (h : (['/', '*', '#'] : List Char).isPrefixOf pat = true) : IsMark pat := by
  obtain ⟨r, hr⟩ := List.isPrefixOf_iff_prefix.1 h
  exact ⟨r, hr.symm⟩

/-- What a line of the template becomes. -/
noncomputable def spread (dst : List Char) (i : Info) (e : List Char) (fs : List FunObj) (l : List Char) : List (List Char) :=
  textLines (fills (headerFill dst i e fs) l)

theorem still_line {e : List Char} (h : ∀ q ∈ fillPats, occurs q l = false) (hn : '\n' ∉ l) : spread dst i e fs l = [l] := by
  rw [spread, fills_still fun p hp => ⟨(fillPats_ok _ (mem_fillPats hp)).1, not_occurs (h _ (mem_fillPats hp))⟩, textLines_line hn]

/-- A line with one marker, that of the replacement `k`, in place of the value. -/
theorem const_one {e : List Char} {ty name pat rep x : List Char} (k : ℕ) (he : (headerFill dst i e fs)[k]? = some (pat, rep))
    (hA : ∀ q ∈ fillPats.take k, occurs q (x ++ pat ++ [';']) = false) (hx : x = ch "\t\tconst " ++ ty ++ [' '] ++ name ++ ch " = ")
    (hm : (['/', '*', '#'] : List Char).isPrefixOf pat = true) (hh : '#' ∉ x ∧ '\n' ∉ x) (hr : RepOk rep) (h1 : ' ' ∉ ty) (h2 : ' ' ∉ name) :
    ∃ l, spread dst i e fs (x ++ pat ++ [';']) = [l] ∧ DeclaresConst l ⟨ty, name, rep⟩ := by
  obtain ⟨hlt, hke⟩ := List.getElem?_eq_some_iff.1 he
  have hsplit : headerFill dst i e fs = (headerFill dst i e fs).take k ++ (pat, rep) :: (headerFill dst i e fs).drop (k + 1) := by
    rw [← hke, List.getElem_cons_drop, List.take_append_drop]
  have := fills_one (A := (headerFill dst i e fs).take k) (B := (headerFill dst i e fs).drop (k + 1)) (pat := pat) (rep := rep) (x := x) (y := [';'])
    (fun p hp => ⟨(fillPats_ok _ (mem_fillPats (List.mem_of_mem_take hp))).1, not_occurs (hA p.1 (by
      rw [← fst_headerFill dst i e fs, ← List.map_take]
      exact List.mem_map.2 ⟨p, hp, rfl⟩))⟩) (isMark_of hm) hh.1 (by decide) hr.hash
    (fun p hp => hash_tail (i := i) (dst := dst) (e := e) (fs := fs) (by
      rw [← List.drop_one]
      have : (headerFill dst i e fs).drop (k + 1) = ((headerFill dst i e fs).drop 1).drop k := by rw [List.drop_drop, Nat.add_comm]
      rw [this] at hp
      exact List.mem_of_mem_drop hp))
  rw [spread, hsplit, this]
  refine ⟨_, textLines_line ?_, ?_⟩
  · simp only [List.mem_append, not_or]
    exact ⟨⟨hh.2, hr.nl⟩, by decide⟩
  · have := declares_text (value := rep) h1 h2
    rw [hx]
    unfold constText at this
    exact this

/-- The line with the name. -/
theorem const_name {e : List Char} {ty nm qu x y z : List Char} (hd : RepOk dst) (hs : ' ' ∉ dst) (hi : RepOk i.robotName) (h1 : stable patRobot x = true)
    (h2 : occurs patRobot (y ++ (patName ++ z)) = false) (hx : RepOk x) (hy : RepOk y) (hz : RepOk z) (ex : x = ch "\t\tconst " ++ ty ++ [' '])
    (ey : y = nm ++ ch " = " ++ qu) (ez : z = qu ++ [';']) (h3 : ' ' ∉ ty) (h4 : ' ' ∉ nm) :
    ∃ l, spread dst i e fs (x ++ patRobot ++ y ++ patName ++ z) = [l] ∧ DeclaresConst l ⟨ty, dst ++ nm, qu ++ i.robotName ++ qu⟩ := by
  have h5 : repl patRobot dst (x ++ patRobot ++ y ++ patName ++ z) = (x ++ dst ++ y) ++ patName ++ z := by
    simp only [List.append_assoc]
    rw [repl_stable (by decide) (stable_spec h1), repl_pat (by decide), repl_none (by decide) (not_occurs h2)]
  have h6 : fills (headerFill dst i e fs) (x ++ patRobot ++ y ++ patName ++ z) = (x ++ dst ++ y) ++ i.robotName ++ z := by
    obtain ⟨B, hB⟩ : ∃ B, B = (headerFill dst i e fs).drop 2 := ⟨_, rfl⟩
    have hsplit : headerFill dst i e fs = (patRobot, dst) :: (patName, i.robotName) :: B := by rw [hB]; rfl
    have hBt : ∀ p ∈ B, '#' ∈ p.1 := by
      intro p hp
      refine hash_tail (i := i) (dst := dst) (e := e) (fs := fs) ?_
      rw [hsplit]
      exact List.mem_cons_of_mem _ hp
    rw [hsplit, fills_cons]
    dsimp only
    rw [h5]
    exact fills_one (A := []) (B := B) (fun p hp => by cases hp) (isMark_of (by decide)) (repOk_append (repOk_append hx hd) hy).hash hz.hash hi.hash hBt
  rw [spread, h6]
  refine ⟨_, textLines_line (repOk_append (repOk_append (repOk_append (repOk_append hx hd) hy) hi) hz).nl, ?_⟩
  have := declares_text (ty := ty) (name := dst ++ nm) (value := qu ++ i.robotName ++ qu) h3 (by
    simp only [List.mem_append, not_or]; exact ⟨hs, h4⟩)
  rw [ex, ey, ez]
  unfold constText at this
  simp only [List.append_assoc] at this ⊢
  exact this

/-- The line of the array. -/
theorem const_array {e : List Char} {ty nm br x y z : List Char} (he : RepOk e) (h1 : ∀ q ∈ fillPats.take 2, occurs q (x ++ patN ++ (y ++ patIs ++ z)) = false)
    (h2 : ∀ q ∈ fillPats.take 9, occurs q (y ++ patIs ++ z) = false) (hx : RepOk x) (hy : RepOk y) (hz : RepOk z) (ex : x = ch "\t\tconst " ++ ty ++ [' '] ++ nm)
    (ey : y = br ++ ch " = ") (ez : z = [';']) (h3 : ' ' ∉ ty) (h4 : ' ' ∉ nm) (h5 : ' ' ∉ br) :
    ∃ l, spread dst i e fs (x ++ patN ++ y ++ patIs ++ z) = [l] ∧ DeclaresConst l ⟨ty, nm ++ dec i.n ++ br, e⟩ := by
  have hn := repOk_dec i.n
  have hsp : ' ' ∉ dec i.n := fun h => absurd (isDigit_dec (n := i.n) (by rw [← dec_eq]; exact h)) (by decide)
  obtain ⟨A, hA⟩ : ∃ A, A = (headerFill dst i e fs).take 2 := ⟨_, rfl⟩
  obtain ⟨B, hB⟩ : ∃ B, B = ((headerFill dst i e fs).drop 3).take 6 := ⟨_, rfl⟩
  have hsplit : headerFill dst i e fs = A ++ (patN, dec i.n) :: (B ++ (patIs, e) :: [(patH, headerFuns fs)]) := by rw [hA, hB]; rfl
  have hBt : ∀ p ∈ B, p ∈ (headerFill dst i e fs).tail := by
    intro p hp
    rw [hB] at hp
    have h6 := List.mem_of_mem_drop (List.mem_of_mem_take hp)
    have h7 : (headerFill dst i e fs).drop 3 = (headerFill dst i e fs).tail.drop 2 := rfl
    exact List.mem_of_mem_drop (h7 ▸ List.mem_of_mem_take hp)
  have hBp : ∀ p ∈ B, p.1 ∈ fillPats.take 9 := by
    intro p hp
    have h8 : B.map Prod.fst = (fillPats.drop 3).take 6 := by rw [hB]; rfl
    have h9 : p.1 ∈ (fillPats.drop 3).take 6 := h8 ▸ List.mem_map.2 ⟨p, hp, rfl⟩
    have h10 : ∀ q ∈ (fillPats.drop 3).take 6, q ∈ fillPats.take 9 := by decide +kernel
    exact h10 _ h9
  have hAp : ∀ p ∈ A, p.1 ∈ fillPats.take 2 := by
    intro p hp
    rw [hA] at hp
    rw [← fst_headerFill dst i e fs, ← List.map_take]
    exact List.mem_map.2 ⟨p, hp, rfl⟩
  have hApm : ∀ p ∈ A, p.1 ≠ [] := fun p hp => (fillPats_ok _ (List.mem_of_mem_take (hAp p hp))).1
  have h6 : fills (headerFill dst i e fs) (x ++ patN ++ y ++ patIs ++ z) = (x ++ dec i.n ++ y) ++ e ++ z := by
    have e1 : x ++ patN ++ y ++ patIs ++ z = x ++ patN ++ (y ++ patIs ++ z) := by simp only [List.append_assoc]
    rw [hsplit, fills_append, fills_still (fun p hp => ⟨hApm p hp, ?_⟩), fills_cons, e1, repl_mark (pat := patN) (isMark_of (by decide)) hx.hash,
      repl_none (pat := patN) (by decide) (not_occurs (h2 patN (by decide +kernel)))]
    · have e2 : x ++ dec i.n ++ (y ++ patIs ++ z) = (x ++ dec i.n ++ y) ++ patIs ++ z := by simp only [List.append_assoc]
      have hxy := (repOk_append (repOk_append hx hn) hy)
      rw [e2]
      refine fills_one (fun p hp => ⟨(fillPats_ok _ (List.mem_of_mem_take (hBp p hp))).1, fun hi => ?_⟩) (isMark_of (by decide)) hxy.hash hz.hash he.hash
        (by intro p hp; rw [List.mem_singleton.1 hp]; exact (by decide : '#' ∈ patH))
      exact infix_marked hxy.hash hz.hash (fillPats_mark _ (by
        have := hBt p hp
        rw [← fst_headerFill dst i e fs, ← List.map_tail]
        exact List.mem_map.2 ⟨p, this, rfl⟩)) (fillPats_mark patIs (by decide +kernel)) (by
          have h10 : ∀ q ∈ (fillPats.drop 3).take 6, q ≠ patIs := by decide +kernel
          have h8 : B.map Prod.fst = (fillPats.drop 3).take 6 := by rw [hB]; rfl
          exact h10 _ (h8 ▸ List.mem_map.2 ⟨p, hp, rfl⟩)) hi
    · rw [e1]; exact not_occurs (h1 _ (hAp p hp))
  rw [spread, h6]
  refine ⟨_, textLines_line (repOk_append (repOk_append (repOk_append (repOk_append hx hn) hy) he) hz).nl, ?_⟩
  have := declares_text (ty := ty) (name := nm ++ dec i.n ++ br) (value := e) h3 (by
    simp only [List.mem_append, not_or]; exact ⟨⟨h4, hsp⟩, h5⟩)
  rw [ex, ey, ez]
  unfold constText at this
  simp only [List.append_assoc] at this ⊢
  exact this

theorem constants_cons {e : List Char} {k : Const} {K : List Const} (h : ∃ l', spread dst i e fs l = [l'] ∧ DeclaresConst l' k)
    (hK : Constants (ls.flatMap (spread dst i e fs)) K) : Constants ((l :: ls).flatMap (spread dst i e fs)) (k :: K) := by
  obtain ⟨l', e', h'⟩ := h
  rw [List.flatMap_cons, e']
  exact .decl h' hK

theorem constants_append {e : List Char} {ls' : List (List Char)} {K K' : List Const} (h : Constants (ls.flatMap (spread dst i e fs)) K)
    (h' : Constants (ls'.flatMap (spread dst i e fs)) K') : Constants ((ls ++ ls').flatMap (spread dst i e fs)) (K ++ K') := by
  rw [List.flatMap_append]
  exact Constants.append h h'

theorem const_still {e : List Char} {ty name value : List Char} (h : ∀ q ∈ fillPats, occurs q l = false) (hn : '\n' ∉ l)
    (hx : l = constText ty name value) (h1 : ' ' ∉ ty) (h2 : ' ' ∉ name) : ∃ l', spread dst i e fs l = [l'] ∧ DeclaresConst l' ⟨ty, name, value⟩ :=
  ⟨l, still_line h hn, hx ▸ declares_text h1 h2⟩

theorem rep_lit (s : String) (h : ((ch s).all fun c => c != '\n' && c != '#') = true) : RepOk (ch s) := by
  rw [List.all_eq_true] at h
  exact ⟨fun hx => by simpa using h _ hx, fun hx => by simpa using h _ hx⟩

section lines

variable {e : List Char}

theorem line_std : ∃ l', spread dst i e fs (ch "\t\tconst int STD_PAR_LINK = 10;") = [l'] ∧ DeclaresConst l' ⟨ch "int", ch "STD_PAR_LINK", ch "10"⟩ :=
  const_still (by decide +kernel) (by decide +kernel) (by decide +kernel) (by decide +kernel) (by decide +kernel)
theorem line_name (hd : RepOk dst) (hs : ' ' ∉ dst) (hi : RepOk i.robotName) :
    ∃ l', spread dst i e fs (ch "\t\tconst std::string " ++ patRobot ++ ch "Name = \"" ++ patName ++ ch "\";") = [l'] ∧
      DeclaresConst l' ⟨ch "std::string", dst ++ ch "Name", ch "\"" ++ i.robotName ++ ch "\""⟩ :=
  const_name hd hs hi (by decide +kernel) (by decide +kernel) (rep_lit _ (by decide +kernel)) (rep_lit _ (by decide +kernel)) (rep_lit _ (by decide +kernel))
    (by decide +kernel) (by decide +kernel) (by decide +kernel) (by decide +kernel) (by decide +kernel)
theorem line_n : ∃ l', spread dst i e fs (ch "\t\tconst int n_joints = " ++ patN ++ [';']) = [l'] ∧ DeclaresConst l' ⟨ch "int", ch "n_joints", dec i.n⟩ :=
  const_one 2 rfl (by decide +kernel) (by decide +kernel) (by decide +kernel) (by decide +kernel) (repOk_dec _) (by decide +kernel) (by decide +kernel)
theorem line_ela : ∃ l', spread dst i e fs (ch "\t\tconst bool ELASTIC = " ++ patEla ++ [';']) = [l'] ∧
    DeclaresConst l' ⟨ch "bool", ch "ELASTIC", if i.elastic then ch "1" else ch "0"⟩ :=
  const_one 3 rfl (by decide +kernel) (by decide +kernel) (by decide +kernel) (by decide +kernel) (by
    split_ifs
    · exact rep_lit _ (by decide +kernel)
    · exact rep_lit _ (by decide +kernel)) (by decide +kernel) (by decide +kernel)
theorem line_ne : ∃ l', spread dst i e fs (ch "\t\tconst int numElasticJoints = " ++ patNe ++ [';']) = [l'] ∧
    DeclaresConst l' ⟨ch "int", ch "numElasticJoints", dec i.ne⟩ :=
  const_one 4 rfl (by decide +kernel) (by decide +kernel) (by decide +kernel) (by decide +kernel) (repOk_dec _) (by decide +kernel) (by decide +kernel)
theorem line_K : ∃ l', spread dst i e fs (ch "\t\tconst int K_order = " ++ patK ++ [';']) = [l'] ∧ DeclaresConst l' ⟨ch "int", ch "K_order", decI i.kI⟩ :=
  const_one 5 rfl (by decide +kernel) (by decide +kernel) (by decide +kernel) (by decide +kernel) (repOk_decI _) (by decide +kernel) (by decide +kernel)
theorem line_D : ∃ l', spread dst i e fs (ch "\t\tconst int D_order = " ++ patD ++ [';']) = [l'] ∧ DeclaresConst l' ⟨ch "int", ch "D_order", decI i.dI⟩ :=
  const_one 6 rfl (by decide +kernel) (by decide +kernel) (by decide +kernel) (by decide +kernel) (repOk_decI _) (by decide +kernel) (by decide +kernel)
theorem line_Dl : ∃ l', spread dst i e fs (ch "\t\tconst int Dl_order = " ++ patDl ++ [';']) = [l'] ∧
    DeclaresConst l' ⟨ch "int", ch "Dl_order", decI i.dlI⟩ :=
  const_one 7 rfl (by decide +kernel) (by decide +kernel) (by decide +kernel) (by decide +kernel) (repOk_decI _) (by decide +kernel) (by decide +kernel)
theorem line_Dm : ∃ l', spread dst i e fs (ch "\t\tconst int Dm_order = " ++ patDm ++ [';']) = [l'] ∧
    DeclaresConst l' ⟨ch "int", ch "Dm_order", decI i.dmI⟩ :=
  const_one 8 rfl (by decide +kernel) (by decide +kernel) (by decide +kernel) (by decide +kernel) (repOk_decI _) (by decide +kernel) (by decide +kernel)
theorem line_dyn : ∃ l', spread dst i e fs (ch "\t\tconst int numParDYN = STD_PAR_LINK*n_joints;") = [l'] ∧
    DeclaresConst l' ⟨ch "int", ch "numParDYN", ch "STD_PAR_LINK*n_joints"⟩ :=
  const_still (by decide +kernel) (by decide +kernel) (by decide +kernel) (by decide +kernel) (by decide +kernel)
theorem line_reg : ∃ l', spread dst i e fs (ch "\t\tconst int numParREG = STD_PAR_LINK*n_joints;") = [l'] ∧
    DeclaresConst l' ⟨ch "int", ch "numParREG", ch "STD_PAR_LINK*n_joints"⟩ :=
  const_still (by decide +kernel) (by decide +kernel) (by decide +kernel) (by decide +kernel) (by decide +kernel)
theorem line_is (he : RepOk e) : ∃ l', spread dst i e fs (ch "\t\tconst int isElasticJoint[" ++ patN ++ ch "] = " ++ patIs ++ ch ";") = [l'] ∧
    DeclaresConst l' ⟨ch "int", ch "isElasticJoint[" ++ dec i.n ++ ch "]", e⟩ :=
  const_array he (by decide +kernel) (by decide +kernel) (rep_lit _ (by decide +kernel)) (rep_lit _ (by decide +kernel)) (rep_lit _ (by decide +kernel))
    (by decide +kernel) (by decide +kernel) (by decide +kernel) (by decide +kernel) (by decide +kernel) (by decide +kernel)

end lines

theorem line_funs {e : List Char} (hf : ∀ f ∈ fs, FunOk f) : Constants (spread dst i e fs (ch "\t\t" ++ patH)) [] := by
  have h0 : ∀ q ∈ fillPats.take 10, occurs q (ch "\t\t" ++ patH) = false := by decide +kernel
  have hst : Stable patH (ch "\t\t") := stable_spec (by decide +kernel)
  have h1 : fills (headerFill dst i e fs) (ch "\t\t" ++ patH) = ch "\t\t" ++ headerFuns fs := by
    obtain ⟨A, hA⟩ : ∃ A, A = (headerFill dst i e fs).take 10 := ⟨_, rfl⟩
    have hsplit : headerFill dst i e fs = A ++ [(patH, headerFuns fs)] := by rw [hA]; rfl
    rw [hsplit, fills_append, fills_still (ps := A) (l := ch "\t\t" ++ patH) fun p hp => ?_, fills_cons]
    · dsimp only
      rw [repl_stable (by decide) hst]
      have := repl_pat (pat := patH) (rep := headerFuns fs) (s := []) (by decide)
      rw [List.append_nil, repl_nil (by decide), List.append_nil] at this
      rw [this]
      rfl
    · have hp' : p ∈ headerFill dst i e fs := by rw [hA] at hp; exact List.mem_of_mem_take hp
      refine ⟨(fillPats_ok _ (mem_fillPats hp')).1, not_occurs (h0 p.1 ?_)⟩
      rw [← fst_headerFill dst i e fs, ← List.map_take, ← hA]
      exact List.mem_map.2 ⟨p, hp, rfl⟩
  have h2 := unlines_splice (a := []) (A := []) (B := []) (R := fs.flatMap headerBlock ++ [[]]) (ws := ch "\t\t")
  rw [List.nil_append, List.nil_append, unlines_singleton, List.append_nil, List.append_nil] at h2
  rw [spread, h1, headerFuns_eq, h2, textLines_unlines ?_ (by simp)]
  · refine .skip (fun k => not_const_blank blank_tabs k) ?_
    have h3 : ∀ gs : List FunObj, Constants (gs.flatMap headerBlock ++ [[]]) [] := by
      intro gs
      induction gs with
      | nil => exact .skip (fun k => not_const_blank blank_nil k) .nil
      | cons g gs ih =>
        rw [List.flatMap_cons, List.append_assoc]
        refine .skip (fun k => ?_) (.skip (fun k => ?_) (.skip (fun k => not_const_blank blank_nil k) ih))
        · exact not_const (q := ch "\t\t// - ") (by decide +kernel) (by rw [List.append_assoc]; exact List.prefix_append _ _) k
        · refine not_const (q := ch "\t\t" ++ ch "Eigen::Matrix<double,") (by decide +kernel) ?_ k
          unfold retType
          simp only [List.append_assoc]
          rw [List.prefix_append_right_inj]
          exact List.prefix_append _ _
    exact h3 fs
  · intro l hl
    simp only [List.mem_append, List.mem_cons, List.not_mem_nil, or_false, List.mem_flatMap] at hl
    rcases hl with rfl | ⟨f, hf', hl⟩ | rfl
    · decide +kernel
    · exact nl_headerBlock (hf f hf') l hl
    · simp

theorem plain_seg {a b : ℕ} {e : List Char} (h : ∀ l ∈ seg a b, plainLine l = true) (hd : RepOk dst) : Constants ((seg a b).flatMap (spread dst i e fs)) [] :=
  constants_plain h hd

/-- The constants in the lines after the guard. -/
theorem constants_body {e : List Char} (hd : RepOk dst) (hs : ' ' ∉ dst) (hi : InfoOk i) (hf : ∀ f ∈ fs, FunOk f) (he : elasticText i.isEla i.n = some e) :
    Constants ((headerChars.drop 2).flatMap (spread dst i e fs)) (constsOf dst i) := by
  have he' : RepOk e := by
    obtain ⟨e', h1, h2⟩ := elastic_ok hi
    rw [he] at h1
    rwa [Option.some.inj h1]
  have hall := List.all_eq_true.1 plain_segs
  have e0 : ch ";" = [';'] := by decide +kernel
  have hk : constsOf dst i = [] ++ ([⟨ch "int", ch "STD_PAR_LINK", ch "10"⟩] ++ ([] ++ ([⟨ch "std::string", dst ++ ch "Name", ch "\"" ++ i.robotName ++ ch "\""⟩,
      ⟨ch "int", ch "n_joints", dec i.n⟩, ⟨ch "bool", ch "ELASTIC", if i.elastic then ch "1" else ch "0"⟩, ⟨ch "int", ch "numElasticJoints", dec i.ne⟩,
      ⟨ch "int", ch "K_order", decI i.kI⟩, ⟨ch "int", ch "D_order", decI i.dI⟩, ⟨ch "int", ch "Dl_order", decI i.dlI⟩, ⟨ch "int", ch "Dm_order", decI i.dmI⟩,
      ⟨ch "int", ch "numParDYN", ch "STD_PAR_LINK*n_joints"⟩, ⟨ch "int", ch "numParREG", ch "STD_PAR_LINK*n_joints"⟩] ++ ([] ++
      ([⟨ch "int", ch "isElasticJoint[" ++ dec i.n ++ ch "]", e⟩] ++ ([] ++ ([] ++ ([] ++ [])))))))) := by
    rw [elasticText_eq hi.pos hi.ela] at he
    rw [← Option.some.inj he, numeral_dec, numeral_dec, numeral_decI, numeral_decI, numeral_decI, numeral_decI]
    rfl
  have hsplit : headerChars.drop 2 = _ := congrArg (List.drop 2) header_split
  rw [hsplit, hk, List.drop_left' (by rfl), e0]
  refine constants_append (plain_seg (fun l hl => hall l (by simp [hl])) hd) (constants_append (constants_cons line_std .nil)
    (constants_append (plain_seg (fun l hl => hall l (by simp [hl])) hd) (constants_append ?_ (constants_append (plain_seg (fun l hl => hall l (by simp [hl])) hd)
    (constants_append (constants_cons (e0 ▸ line_is he') .nil) (constants_append (plain_seg (fun l hl => hall l (by simp [hl])) hd) (constants_append ?_
    (constants_append (plain_seg (fun l hl => hall l (by simp [hl])) hd) ?_))))))))
  · exact constants_cons (line_name hd hs hi.name) (constants_cons line_n (constants_cons line_ela (constants_cons line_ne (constants_cons line_K
      (constants_cons line_D (constants_cons line_Dl (constants_cons line_Dm (constants_cons line_dyn (constants_cons line_reg .nil)))))))))
  · rw [List.flatMap_singleton]
    exact line_funs hf
  · rw [List.flatMap_singleton, still_line (by decide +kernel) (by decide +kernel)]
    exact .skip (fun k => not_const (q := ch "#endif") (by decide +kernel) List.prefix_rfl k) .nil

end Thunder.Text
