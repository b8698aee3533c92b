import Verif.Model.GenYaml
import Verif.Spec.ParFile
import Verif.Lemmas.Generated
import Verif.Lemmas.Inertia

/-!
# `genInertial_files`
-/

namespace Thunder.GenYaml

open Act Spec Robot

/-! ## The loop over the links -/

/-- What the loop stores for one entry when no friction is declared. -/
noncomputable def linkOf (e : Option String × Yaml) : Option LinkProp :=
  (e.2.getC "inertial").bind fun z => e.1.bind fun name => (Wrap.readInertial "CoM_" z).map fun p => propOf name p [some 0]

theorem readLink_cases (i : ℕ) (e : Option String × Yaml) (s : St) : readLink 0 i e s = match linkOf e with
    | none => .yaml s
    | some p => if i < s.dh.length then .ok () { s with dh := s.dh.set i p } else .ub := by
  obtain ⟨k, nd⟩ := e
  unfold readLink linkOf
  cases h : nd.getC "inertial" with
  | none => rfl
  | some z =>
    cases k with
    | none => rfl
    | some name =>
      cases hp : Wrap.readInertial "CoM_" z with
      | none =>
        simp only [Option.bind_some, hp, Option.map_none]
        rw [bind_ok (ofYaml_some _ _), bind_ok (ofYaml_some _ _), hp]
        rfl
      | some p =>
        simp only [Option.bind_some, hp, Option.map_some]
        rw [bind_ok (ofYaml_some _ _), bind_ok (ofYaml_some _ _), hp, bind_ok (ofYaml_some _ _),
          bind_ok (show readDl 0 nd s = .ok [some 0] s by unfold readDl; rw [if_pos rfl]; rfl)]
        unfold putAt
        rw [bind_ok (read_run _)]
        split_ifs <;> rfl

theorem loop_ok : ∀ (L : List (Option String × Yaml)) (ps : List LinkProp) (i : ℕ) (s : St), L.mapM linkOf = some ps → i + L.length ≤ s.dh.length →
    forIdx (readLink 0) i L s = .ok () { s with dh := s.dh.take i ++ ps ++ s.dh.drop (i + L.length) }
  | [], ps, i, s, h, _ => by
    cases h
    simp [forIdx]
  | e :: L, ps, i, s, h, hi => by
    obtain ⟨p, ps', h1, h2, rfl⟩ := Wrap.mapM_cons_some h
    rw [List.length_cons] at hi
    have e1 : readLink 0 i e s = .ok () { s with dh := s.dh.set i p } := by
      rw [readLink_cases, h1]; exact if_pos (by omega)
    rw [forIdx, bind_ok e1, loop_ok L ps' (i + 1) _ h2 (by simp only [List.length_set]; omega)]
    congr 2
    rw [List.set_eq_take_append_cons_drop, if_pos (by omega)]
    have hl : (s.dh.take i).length = i := by rw [List.length_take]; omega
    have h3 : (s.dh.take i ++ p :: s.dh.drop (i + 1)).take (i + 1) = s.dh.take i ++ [p] := by
      rw [List.take_append, hl, List.take_of_length_le (by omega), Nat.add_sub_cancel_left]; rfl
    have h4 : (s.dh.take i ++ p :: s.dh.drop (i + 1)).drop (i + 1 + L.length) = s.dh.drop (i + (L.length + 1)) := by
      rw [List.drop_append, hl, List.drop_eq_nil_of_le (by omega), show i + 1 + L.length - i = L.length + 1 by omega, List.drop_succ_cons, List.drop_drop]
      simp only [List.nil_append]; congr 1; omega
    rw [h3, h4, List.length_cons]
    simp

theorem loop_ub : ∀ (L : List (Option String × Yaml)) (ps : List LinkProp) (i : ℕ) (s : St), L.mapM linkOf = some ps → i ≤ s.dh.length →
    s.dh.length < i + L.length → forIdx (readLink 0) i L s = .ub
  | [], _, i, s, _, h1, h2 => by simp at h2; omega
  | e :: L, ps, i, s, h, h1, h2 => by
    obtain ⟨p, ps', h3, h4, rfl⟩ := Wrap.mapM_cons_some h
    rw [List.length_cons] at h2
    rw [forIdx]
    by_cases hi : i < s.dh.length
    · have e1 : readLink 0 i e s = .ok () { s with dh := s.dh.set i p } := by
        rw [readLink_cases, h3]; exact if_pos hi
      rw [bind_ok e1]
      exact loop_ub L ps' (i + 1) _ h4 (by simp only [List.length_set]; omega) (by simp only [List.length_set]; omega)
    · exact bind_ub (by rw [readLink_cases, h3]; exact if_neg hi)

theorem putAt_files {i : ℕ} {a : LinkProp} (s : St) : match putAt i a s with
    | .ok _ s' => s'.files = s.files ∧ s'.dh.length = s.dh.length
    | .yaml s' => s'.files = s.files
    | .exc s' => s'.files = s.files
    | .ub => ¬ i < s.dh.length := by
  unfold putAt
  rw [bind_ok (read_run _)]
  split_ifs with h
  · simp [Act.modify]
  · exact h

theorem readDl_files (ord : ℤ) (nd : Yaml) (s : St) : match readDl ord nd s with
    | .ok _ s' => s' = s
    | .yaml s' => s' = s
    | .exc s' => s' = s
    | .ub => False := by
  unfold readDl
  split_ifs
  · rfl
  · rfl
  · cases h1 : nd.getC "friction" with
    | none => exact rfl
    | some z =>
      rw [bind_ok (ofYaml_some _ _)]
      cases h2 : nd.getC "Dl" with
      | none => exact rfl
      | some v =>
        rw [bind_ok (ofYaml_some _ _)]
        cases v.asVec Yaml.asD <;> exact rfl

/-- One iteration writes no file, keeps the size of the vector and is defined when the index is inside. -/
theorem readLink_files (ord : ℤ) (i : ℕ) (e : Option String × Yaml) (s : St) : match readLink ord i e s with
    | .ok _ s' => s'.files = s.files ∧ s'.dh.length = s.dh.length
    | .yaml s' => s'.files = s.files
    | .exc s' => s'.files = s.files
    | .ub => ¬ i < s.dh.length := by
  obtain ⟨k, nd⟩ := e
  unfold readLink
  cases h : nd.getC "inertial" with
  | none => exact rfl
  | some z =>
    rw [bind_ok (ofYaml_some _ _)]
    cases k with
    | none => exact rfl
    | some name =>
      rw [bind_ok (ofYaml_some _ _)]
      cases hp : Wrap.readInertial "CoM_" z with
      | none => exact rfl
      | some p =>
        rw [bind_ok (ofYaml_some _ _)]
        have hd := readDl_files ord nd s
        cases hr : readDl ord nd s with
        | ok dl s' => rw [hr] at hd; subst hd; rw [bind_ok hr]; exact putAt_files s'
        | yaml s' => rw [hr] at hd; subst hd; rw [bind_yaml hr]
        | exc s' => rw [hr] at hd; subst hd; rw [bind_exc hr]
        | ub => rw [hr] at hd; exact hd.elim

theorem loop_files (ord : ℤ) : ∀ (L : List (Option String × Yaml)) (i : ℕ) (s : St), match forIdx (readLink ord) i L s with
    | .ok _ s' => s'.files = s.files ∧ s'.dh.length = s.dh.length
    | .yaml s' => s'.files = s.files
    | .exc s' => s'.files = s.files
    | .ub => s.dh.length < i + L.length
  | [], i, s => ⟨rfl, rfl⟩
  | e :: L, i, s => by
    rw [forIdx]
    have h := readLink_files ord i e s
    cases hr : readLink ord i e s with
    | ok a s' =>
      rw [hr] at h
      rw [bind_ok hr]
      have ih := loop_files ord L (i + 1) s'
      cases hl : forIdx (readLink ord) (i + 1) L s' with
      | ok b s'' => rw [hl] at ih; exact ⟨ih.1.trans h.1, ih.2.trans h.2⟩
      | yaml s'' => rw [hl] at ih; exact ih.trans h.1
      | exc s'' => rw [hl] at ih; exact ih.trans h.1
      | ub => rw [hl] at ih; simp only [List.length_cons]; simp only [h.2] at ih; omega
    | yaml s' => rw [hr] at h; rw [bind_yaml hr]; exact h
    | exc s' => rw [hr] at h; rw [bind_exc hr]; exact h
    | ub => rw [hr] at h; rw [bind_ub hr]; simp only [List.length_cons]; omega

/-- With friction declared, an entry without the key `Dl` ends the loop. -/
theorem readLink_noDl {ord : ℤ} (ho : 0 < ord) {i : ℕ} {name : String} {nd z : Yaml} {P : ℕ → Num} (hz : Child nd "inertial" z) (hi : Inertial z "CoM_" P)
    (hd : NoChild nd "Dl") (s : St) : readLink ord i (some name, nd) s = .yaml s := by
  unfold readLink
  rw [getC_child hz, bind_ok (ofYaml_some _ _), bind_ok (ofYaml_some _ _), Wrap.readInertial_ok hi, bind_ok (ofYaml_some _ _)]
  refine bind_yaml ?_
  unfold readDl
  rw [if_neg (by omega), if_neg (by omega)]
  obtain ⟨f, hf⟩ : ∃ f, nd.getC "friction" = some f := by
    obtain ⟨l, rfl, -⟩ := hd
    exact ⟨_, rfl⟩
  rw [hf, bind_ok (ofYaml_some _ _), getC_noChild hd, bind_ok (ofYaml_some _ _)]
  rfl

/-- The loop over the entries of a list of links. -/
theorem mapM_links {l : List (Option String × Yaml)} {n : ℕ} {name : ℕ → String} {P : ℕ → ℕ → Num} (hn : l.length = n)
    (h : ∀ i < n, ∃ nd z, l[i]? = some (some (name i), nd) ∧ Child nd "inertial" z ∧ Inertial z "CoM_" (P i)) :
    l.mapM linkOf = some ((List.range n).map fun i => propOf (name i) ((List.range 10).map (P i)) [some 0]) := by
  subst hn
  refine Wrap.mapM_range l fun i hi => ?_
  obtain ⟨nd, z, h1, h2, h3⟩ := h i hi
  rw [List.getElem?_eq_getElem hi, Option.some.injEq] at h1
  rw [h1]
  unfold linkOf
  rw [getC_child h2, Option.bind_some, Option.bind_some, Wrap.readInertial_ok h3, Option.map_some]

/-! ## The trees -/

/-- The entry of one link. -/
theorem linkNode_eq {com : String} (hc : com = "m_CoM_" ∨ com = "CoM_") (p : ℕ → Num) (dl : List Num) : Wrap.linkNode com p dl =
    .map [(some "inertial", .map ((List.range 10).map fun k => (some ((Wrap.inertialKeys com).getD k ""), Yaml.ofD (p k)))),
      (some "friction", .map [(some "Dl", Yaml.ofVec dl)])] := by
  unfold Wrap.linkNode
  rw [Yaml.foldl_setKey (base := .undef) trivial _ _ 10 (Wrap.inertialKeys_inj hc)]
  simp [Yaml.setKey, Yaml.lookup]

theorem inertial_linkNode {com : String} (hc : com = "m_CoM_" ∨ com = "CoM_") (p : ℕ → Num) (dl : List Num) :
    ∃ z, Child (Wrap.linkNode com p dl) "inertial" z ∧ Inertial z com p := by
  refine ⟨.map ((List.range 10).map fun k => (some ((Wrap.inertialKeys com).getD k ""), Yaml.ofD (p k))), ?_, ?_⟩
  · rw [linkNode_eq hc]
    exact child_of_lookup rfl
  · have h : ∀ k < 10, Number (.map ((List.range 10).map fun k => (some ((Wrap.inertialKeys com).getD k ""), Yaml.ofD (p k))))
        ((Wrap.inertialKeys com).getD k "") (p k) := fun k hk =>
      ⟨_, child_of_lookup (Yaml.lookup_map (key := fun k => (Wrap.inertialKeys com).getD k "") (val := fun k => Yaml.ofD (p k)) _ (List.mem_range.2 hk)
        fun j hj h => Wrap.inertialKeys_inj hc j (List.mem_range.1 hj) k hk h), rfl⟩
    exact ⟨h 0 (by decide), h 1 (by decide), h 2 (by decide), h 3 (by decide), h 4 (by decide), h 5 (by decide), h 6 (by decide), h 7 (by decide),
      h 8 (by decide), h 9 (by decide)⟩

/-- Entries of a tree have different keys. -/
def KeysOk (y : Yaml) : Prop := y = .null ∨ ∃ l, y = .map l ∧ (l.map Prod.fst).Nodup

theorem keysOk_setKey {y : Yaml} (h : KeysOk y) (k : String) (v : Yaml) : KeysOk (y.setKey k v) := by
  rcases h with rfl | ⟨l, rfl, h⟩
  · exact .inr ⟨_, rfl, by simp⟩
  · simp only [Yaml.setKey]
    split_ifs with hl
    · refine .inr ⟨_, rfl, ?_⟩
      rw [List.map_map]
      have : (Prod.fst ∘ fun p : Option String × Yaml => if p.1 == some k then (p.1, v) else p) = Prod.fst := by
        funext p
        simp only [Function.comp]
        split_ifs <;> rfl
      rw [this]
      exact h
    · refine .inr ⟨_, rfl, ?_⟩
      rw [List.map_append, List.nodup_append]
      refine ⟨h, by simp, ?_⟩
      intro a ha b hb
      simp only [List.map_cons, List.map_nil, List.mem_singleton] at hb
      subst hb
      rintro rfl
      obtain ⟨p, hp, hk⟩ := List.mem_map.1 ha
      apply hl
      unfold Yaml.lookup
      rw [Option.isSome_map, List.find?_isSome]
      exact ⟨p, hp, by simp [hk]⟩

theorem keysOk_foldl (com : String) : ∀ (links : List LinkProp) (y : Yaml), KeysOk y →
    KeysOk (links.foldl (fun y l => y.setKey l.name (Wrap.linkNode com (tenOf l) l.Dl)) y)
  | [], _, h => h
  | _ :: links, _, h => keysOk_foldl com links _ (keysOk_setKey h _ _)

theorem child_fill {com : String} {links : List LinkProp} {z : Yaml} (h : Child (fill com links) "dynamics" z) :
    z = links.foldl (fun y l => y.setKey l.name (Wrap.linkNode com (tenOf l) l.Dl)) Yaml.null := by
  obtain ⟨l, e, hl⟩ := lookup_child h
  have : l = [(some "dynamics", links.foldl (fun y l => y.setKey l.name (Wrap.linkNode com (tenOf l) l.Dl)) Yaml.null)] := by
    simpa [fill, Yaml.setKey] using e.symm
  subst this
  simpa [Yaml.lookup] using hl.symm

/-- A file that lists the links has different names. -/
theorem names_of_fill {com com' : String} {links : List LinkProp} {n : ℕ} {name : ℕ → String} {P : ℕ → ℕ → Num} (h : LinkList (fill com links) n name com' P) :
    ∀ i < n, ∀ j < n, name i = name j → i = j := by
  obtain ⟨l, h1, h2, h3⟩ := h
  have hk := keysOk_foldl com links .null (.inl rfl)
  rw [← child_fill h1] at hk
  rcases hk with hk | ⟨l', hk, hd⟩
  · cases hk
  cases hk
  intro i hi j hj e
  obtain ⟨nd, z, hi', -⟩ := h3 i hi
  obtain ⟨nd', z', hj', -⟩ := h3 j hj
  have hi2 : (l.map Prod.fst)[i]? = some (some (name i)) := by rw [List.getElem?_map, hi']; rfl
  have hj2 : (l.map Prod.fst)[j]? = some (some (name i)) := by rw [List.getElem?_map, hj', e]; rfl
  have hlen : i < (l.map Prod.fst).length := by simp; omega
  exact (List.getElem?_inj hlen hd).1 (hi2.trans hj2.symm)

/-- The tree for links with different names. -/
theorem fill_eq {com : String} {n : ℕ} (hn : 0 < n) {g : ℕ → LinkProp} (hinj : ∀ i < n, ∀ j < n, (g i).name = (g j).name → i = j) :
    fill com ((List.range n).map g) = .map [(some "dynamics", .map ((List.range n).map fun i => (some (g i).name, Wrap.linkNode com (tenOf (g i)) (g i).Dl)))] := by
  unfold fill
  rw [List.foldl_map, Yaml.foldl_setKey (base := .null) trivial (fun i => (g i).name) (fun i => Wrap.linkNode com (tenOf (g i)) (g i).Dl) n hinj,
    if_neg (by omega)]
  rfl

theorem tenOf_propOf (name : String) (p : ℕ → Num) (dl : List Num) {k : ℕ} (hk : k < 10) : tenOf (propOf name ((List.range 10).map p) dl) k = p k := by
  have : k = 0 ∨ k = 1 ∨ k = 2 ∨ k = 3 ∨ k = 4 ∨ k = 5 ∨ k = 6 ∨ k = 7 ∨ k = 8 ∨ k = 9 := by omega
  rcases this with rfl | rfl | rfl | rfl | rfl | rfl | rfl | rfl | rfl | rfl <;> rfl

theorem tenOf_regProp (name : String) (p : ℕ → ℝ) (dl : List Num) {k : ℕ} (hk : k < 10) :
    tenOf (regProp (propOf name ((List.range 10).map fun j => some (p j)) dl)) k = some (linParOf p k) := by
  have : k = 0 ∨ k = 1 ∨ k = 2 ∨ k = 3 ∨ k = 4 ∨ k = 5 ∨ k = 6 ∨ k = 7 ∨ k = 8 ∨ k = 9 := by omega
  rcases this with rfl | rfl | rfl | rfl | rfl | rfl | rfl | rfl | rfl | rfl <;>
    simp [tenOf, regProp, propOf, parI6, add3, createI, steinerGen, scale3, mul3, tr3, hatN, List.range_succ, linParOf, Spec.linPar, Spec.originInertia, hat,
      Matrix.mul_apply, Fin.sum_univ_three]

theorem inertial_congr {z : Yaml} {com : String} {p p' : ℕ → Num} (h : Inertial z com p) (e : ∀ k < 10, p k = p' k) : Inertial z com p' := by
  unfold Inertial at *
  rwa [← e 0 (by decide), ← e 1 (by decide), ← e 2 (by decide), ← e 3 (by decide), ← e 4 (by decide), ← e 5 (by decide), ← e 6 (by decide), ← e 7 (by decide),
    ← e 8 (by decide), ← e 9 (by decide)]

/-- The tree lists the links. -/
theorem linkList_fill {com : String} (hc : com = "m_CoM_" ∨ com = "CoM_") {n : ℕ} (hn : 0 < n) {g : ℕ → LinkProp} {P : ℕ → ℕ → Num}
    (hinj : ∀ i < n, ∀ j < n, (g i).name = (g j).name → i = j) (hP : ∀ i < n, ∀ k < 10, tenOf (g i) k = P i k) :
    LinkList (fill com ((List.range n).map g)) n (fun i => (g i).name) com P := by
  rw [fill_eq hn hinj]
  refine ⟨_, child_of_lookup rfl, by simp, fun i hi => ?_⟩
  obtain ⟨z, h1, h2⟩ := inertial_linkNode hc (tenOf (g i)) (g i).Dl
  exact ⟨_, z, by simp [hi], h1, inertial_congr h2 (hP i hi)⟩

/-! ## The function -/

theorem genInertial_run (n : ℕ) (y : Yaml) (a b : String) : genInertial n (some y) a b start =
    tryYaml (do readAll y; writeAll a b) (pure 0) ⟨List.replicate n blank, List.replicate n blank, []⟩ := by
  unfold genInertial
  rw [if_neg (by omega)]
  rfl

/-- The order of friction that is read. -/
theorem readAll_run {y d : Yaml} (hd : Child y "dynamics" d) (ho : NoFriction y) (s : St) : readAll y s = forIdx (readLink 0) 0 d.items s := by
  unfold readAll
  rw [getM_child hd, bind_ok (ofYaml_some _ _)]
  rcases ho with ho | ⟨o, ho, hz⟩
  · rw [show y.getM "Dl_order" = some .undef by obtain ⟨l, rfl, h⟩ := ho; simp [Yaml.getM, Yaml.lookup_isSome h], bind_ok (ofYaml_some _ _)]
    rfl
  · rw [getM_child ho, bind_ok (ofYaml_some _ _)]
    cases o <;> first | cases hz | skip
    rw [if_pos (by rfl), bind_ok (show (ofYaml _ : Act St ℤ) s = .ok 0 s by rw [hz]; rfl)]

theorem readAll_order {y d : Yaml} {ord : ℤ} (hd : Child y "dynamics" d) (ho : Entry Yaml.asI y "Dl_order" ord) (s : St) :
    readAll y s = forIdx (readLink ord) 0 d.items s := by
  unfold readAll
  rw [getM_child hd, bind_ok (ofYaml_some _ _)]
  obtain ⟨o, ho, hz⟩ := ho
  rw [getM_child ho, bind_ok (ofYaml_some _ _)]
  cases o <;> first | cases hz | skip
  rw [if_pos (by rfl), bind_ok (show (ofYaml _ : Act St ℤ) s = .ok ord s by rw [hz]; rfl)]

/-- The files written, for a file without friction. -/
theorem run_ok {y : Yaml} {n m : ℕ} {name : ℕ → String} {P : ℕ → ℕ → Num} (h : LinkList y m name "CoM_" P) (ho : NoFriction y) (hm : m ≤ n) (a b : String) :
    ∃ s, genInertial n (some y) a b start = .ok 1 s ∧
      s.dh = ((List.range m).map fun i => propOf (name i) ((List.range 10).map (P i)) [some 0]) ++ List.replicate (n - m) blank ∧
      s.files = [(b, fill "m_CoM_" (s.dh.map regProp)), (a, fill "CoM_" s.dh)] := by
  obtain ⟨l, h1, h2, h3⟩ := h
  have e := loop_ok l _ 0 ⟨List.replicate n blank, List.replicate n blank, []⟩ (mapM_links h2 h3) (by simp; omega)
  have e2 : readAll y ⟨List.replicate n blank, List.replicate n blank, []⟩ = .ok () ⟨((List.range m).map fun i =>
      propOf (name i) ((List.range 10).map (P i)) [some 0]) ++ List.replicate (n - m) blank, List.replicate n blank, []⟩ := by
    rw [readAll_run h1 ho]
    refine e.trans ?_
    simp [h2]
  generalize ((List.range m).map fun i => propOf (name i) ((List.range 10).map (P i)) [some 0]) ++ List.replicate (n - m) blank = L at e2
  refine ⟨⟨L, L.map regProp, [(b, fill "m_CoM_" (L.map regProp)), (a, fill "CoM_" L)]⟩, ?_, rfl, rfl⟩
  rw [genInertial_run]
  unfold tryYaml
  rw [bind_ok e2]
  rfl

/-! ## Reading the files -/

theorem loadREG_links {c : Wrap.Cfg} {o : Wrap.Obj} (hs : Wrap.Sized c o) {y : Yaml} {name : ℕ → String} {p : ℕ → ℝ}
    (h : LinkList y c.n name "m_CoM_" fun i j => some (p (10 * i + j))) :
    (Wrap.Call.loadREG (some y) false).run c o = some (o.set .REG (vecN (10 * c.n) p)) := by
  obtain ⟨l, h1, h2, h3⟩ := h
  have hl : l.mapM (Wrap.readLink "m_CoM_") = some ((List.range c.n).map fun i => (List.range 10).map fun j => some (p (10 * i + j))) := by
    rw [← h2]
    refine Wrap.mapM_range l fun i hi => ?_
    obtain ⟨nd, z, h4, h5, h6⟩ := h3 i (by omega)
    rw [List.getElem?_eq_getElem hi, Option.some.injEq] at h4
    rw [h4]
    unfold Wrap.readLink
    rw [Option.bind_some, getC_child h5, Option.bind_some, Wrap.readInertial_ok h6]
  have e := Wrap.regLoop_ok l 0 o _ hs (Nat.zero_le _) (by rw [Nat.sub_zero, List.take_of_length_le (by omega)]; exact hl)
  have hv : ((List.range c.n).map fun i => (List.range 10).map fun j => (some (p (10 * i + j)) : Num)).flatten = vecN (10 * c.n) p := by
    rw [← List.flatMap_def, vecN, map_range_ten]
  rw [hv, Nat.mul_zero, Wrap.splice_full (by rw [length_vecN]; exact (hs .REG id).symm)] at e
  simp only [Wrap.Call.run, Wrap.loadREG, Wrap.yaml, getM_child h1, Yaml.isDef, if_true, Yaml.items, e]
  rfl

theorem loadConf_links {c : Wrap.Cfg} {o : Wrap.Obj} (hs : Wrap.Sized c o) (hd : c.dlOrd = 0) {l : List (Option String × Yaml)} (hl : l.length = c.n) {p : ℕ → ℝ}
    (h : ∀ i (hi : i < l.length), ∃ dl, Wrap.readDynLink l[i] = some ((List.range 10).map fun j => some (p (10 * i + j)), dl)) :
    (Wrap.Call.loadConf (some (.map [(some "dynamics", .map l)])) false).run c o = some (o.set .DYN (vecN (10 * c.n) p)) := by
  have h' : ∃ dl : ℕ → Option (List Num), ∀ i (hi : i < l.length), Wrap.readDynLink l[i] = some ((List.range 10).map fun j => some (p (10 * i + j)), dl i) :=
    ⟨fun i => if hi : i < l.length then (h i hi).choose else none, fun i hi => by simp only [dif_pos hi]; exact (h i hi).choose_spec⟩
  obtain ⟨dl, h'⟩ := h'
  have e := Wrap.dynLoop_ok l 0 o _ hs (Nat.zero_le _) (by rw [Nat.sub_zero, List.take_of_length_le (by omega)]; exact Wrap.mapM_range l h') (by
    intro e _ dl _
    omega)
  have hv : (((List.range l.length).map fun i => ((List.range 10).map fun j => (some (p (10 * i + j)) : Num), dl i)).map Prod.fst).flatten = vecN (10 * c.n) p := by
    rw [hl, vecN, map_range_ten, List.flatMap_def, List.map_map]
    rfl
  have h0 : o.vec .Dl = [] := List.eq_nil_of_length_eq_zero (by rw [hs .Dl id]; simp [Wrap.Cfg.size, hd])
  have h1 : (o.set .DYN (vecN (10 * c.n) p)).set .Dl [] = o.set .DYN (vecN (10 * c.n) p) := by
    rw [← h0, ← Wrap.set_vec_ne o (vecN (10 * c.n) p) (by decide : Wrap.Field.Dl ≠ .DYN)]
    exact Wrap.set_self _ _
  rw [hv, Nat.mul_zero, Wrap.splice_full (by rw [length_vecN]; exact (hs .DYN id).symm), hd, h0, Wrap.dlWrites_zero, h1] at e
  simp only [Wrap.Call.run, Wrap.loadConf, Wrap.yaml, Wrap.loadBody_dyn, Yaml.isDef, if_true, Yaml.items, e]
  rfl

/-- The entry just written. -/
theorem child_setKey {y : Yaml} (h : KeysOk y) (k : String) (v : Yaml) : Child (y.setKey k v) k v := by
  rcases h with rfl | ⟨l, rfl, -⟩
  · exact child_of_lookup (by simp [Yaml.lookup])
  · simp only [Yaml.setKey]
    split_ifs with hl
    · refine child_of_lookup ?_
      clear * - hl
      induction l with
      | nil => simp [Yaml.lookup] at hl
      | cons p l ih =>
        by_cases hp : p.1 = some k
        · simp [Yaml.lookup, hp]
        · have hl' : (Yaml.lookup k l).isSome := by simpa [Yaml.lookup, hp] using hl
          simpa [Yaml.lookup, hp] using ih hl'
    · refine child_of_lookup ?_
      unfold Yaml.lookup at hl ⊢
      rw [Option.isSome_map, Bool.not_eq_true, Option.isSome_eq_false_iff, Option.isNone_iff_eq_none] at hl
      rw [List.find?_append, hl]
      simp

/-- A link without name and mass at the end of the list. -/
theorem blank_fill {com : String} (hc : com = "m_CoM_" ∨ com = "CoM_") (L : List LinkProp) {l : LinkProp} (h0 : l.name = "") (h1 : l.mass = some 0) :
    ∃ d nd z, Child (fill com (L ++ [l])) "dynamics" d ∧ Child d "" nd ∧ Child nd "inertial" z ∧ Number z "mass" (some 0) := by
  obtain ⟨z, h2, h3⟩ := inertial_linkNode hc (tenOf l) l.Dl
  refine ⟨_, Wrap.linkNode com (tenOf l) l.Dl, z, child_of_lookup (by simp [Yaml.lookup]; rfl), ?_, h2, ?_⟩
  · rw [h0]
    exact child_setKey (keysOk_foldl com L .null (.inl rfl)) _ _
  · have := h3.1
    rwa [show tenOf l 0 = l.mass from rfl, h1] at this

/-! ## Well-formed files -/

/-- A well-formed file without friction lists its links. -/
theorem linkList_describes {y : Yaml} {c : Conf} (h : Describes y c) : ∃ name, LinkList y c.n name "CoM_" fun i j => some (c.dyn (10 * i + j)) := by
  obtain ⟨l, h1, h2, h3⟩ := h.links
  have h4 : ∀ i, ∃ k, i < c.n → ∃ nd, l[i]? = some (some k, nd) ∧ ConfLink c i nd := fun i => by
    by_cases hi : i < c.n
    · obtain ⟨k, nd, h⟩ := h3 i hi
      exact ⟨k, fun _ => ⟨nd, h⟩⟩
    · exact ⟨"", fun h => absurd h hi⟩
  choose name hname using h4
  refine ⟨name, l, h1, h2, fun i hi => ?_⟩
  obtain ⟨nd, h5, ⟨z, h6, h7, -⟩, -⟩ := hname i hi
  exact ⟨nd, z, h5, h6, h7⟩

theorem noFriction_describes {y : Yaml} {c : Conf} (h : Describes y c) (h0 : c.dlO = 0) : NoFriction y := by
  rcases h.dlO with ⟨h1, -⟩ | h1
  · exact .inl h1
  · exact .inr (by rw [h0] at h1; exact h1)

/-- The links of a file have different names and no entry `Dl` of their own. -/
def keysCheck (y : Yaml) : Bool :=
  match y.getM "dynamics" with
  | some d => decide (d.items.map Prod.fst).Nodup && d.items.all fun e => match e.2 with
    | .map l => l.all fun x => decide (x.1 ≠ some "Dl")
    | _ => false
  | none => false

theorem keysCheck_nodup {y : Yaml} (h : keysCheck y = true) : ∀ l, Child y "dynamics" (.map l) → (l.map Prod.fst).Nodup := by
  intro l h1
  unfold keysCheck at h
  rw [getM_child h1] at h
  simp only [Yaml.items, Bool.and_eq_true] at h
  exact of_decide_eq_true h.1

theorem names_of_nodup {y : Yaml} (h : ∀ l, Child y "dynamics" (.map l) → (l.map Prod.fst).Nodup) {n : ℕ} {name : ℕ → String} {com : String} {P : ℕ → ℕ → Num} (hl : LinkList y n name com P) :
    ∀ i < n, ∀ j < n, name i = name j → i = j := by
  obtain ⟨l, h1, h2, h3⟩ := hl
  intro i hi j hj e
  obtain ⟨nd, z, hi', -⟩ := h3 i hi
  obtain ⟨nd', z', hj', -⟩ := h3 j hj
  have hi2 : (l.map Prod.fst)[i]? = some (some (name i)) := by rw [List.getElem?_map, hi']; rfl
  have hj2 : (l.map Prod.fst)[j]? = some (some (name i)) := by rw [List.getElem?_map, hj', e]; rfl
  have hlen : i < (l.map Prod.fst).length := by simp; omega
  exact (List.getElem?_inj hlen (h l h1)).1 (hi2.trans hj2.symm)

theorem keysCheck_Dl {y : Yaml} (h : keysCheck y = true) {l : List (Option String × Yaml)} (hl : Child y "dynamics" (.map l)) : ∀ e ∈ l, NoChild e.2 "Dl" := by
  unfold keysCheck at h
  rw [getM_child hl] at h
  simp only [Yaml.items, Bool.and_eq_true, List.all_eq_true] at h
  intro e he
  have := h.2 e he
  obtain ⟨k, nd⟩ := e
  cases nd <;> simp only [Bool.false_eq_true] at this
  exact ⟨_, rfl, fun x hx => by simpa using List.all_eq_true.1 this x hx⟩

end Thunder.GenYaml
