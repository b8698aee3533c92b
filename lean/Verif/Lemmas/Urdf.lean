import Verif.Model.Urdf
import Verif.Spec.Urdf
import Verif.Lemmas.GenYaml
import Verif.Props.Body

/-!
# The program genYAML
-/

namespace Thunder.Urdf

open Act Spec Matrix Real

/-! ## Reading -/

/-- The body read from a complete entry. -/
noncomputable def bodyOf (name : String) (m : ℝ) (c ang : Fin 3 → ℝ) (I : Fin 6 → ℝ) : LinkProp := ⟨name, some m, realV I, realV c, realV ang, []⟩

/-- The entry is read and stored. -/
def Pushes (scan : String → List Num) (e : Option String × Yaml) (u : LinkProp) : Prop :=
  ∀ s, readEntry scan e s = .ok () { s with links := s.links ++ [u] }

theorem three_eq (c : Fin 3 → ℝ) : three [some (c 0), some (c 1), some (c 2)] = realV c := by
  funext k
  fin_cases k <;> rfl

theorem pushes_of_entry {scan : String → List Num} {e : Option String × Yaml} {name : String} {m : ℝ} {c ang : Fin 3 → ℝ} {I : Fin 6 → ℝ}
    (h : BodyEntry scan e name m c ang I) : Pushes scan e (bodyOf name m c ang I) := by
  obtain ⟨h1, ⟨zm, hm, hm'⟩, ⟨z, hz, i0, i1, i2, i3, i4, i5⟩, o, a, b, ho, ha, ha', hb, hb'⟩ := h
  intro s
  unfold readEntry
  rw [h1, bind_ok (ofYaml_some _ _), Robot.getC_child hm, bind_ok (ofYaml_some _ _), Robot.getC_child hz, bind_ok (ofYaml_some _ _),
    Robot.getC_child ho, bind_ok (ofYaml_some _ _), hm', bind_ok (ofYaml_some _ _)]
  have hI : (["xx", "xy", "xz", "yy", "yz", "zz"].mapM fun k => (z.getM k).bind Yaml.asD) =
      some [some (I 0), some (I 1), some (I 2), some (I 3), some (I 4), some (I 5)] := by
    simp only [List.mapM_cons, List.mapM_nil, Robot.getM_number i0, Robot.getM_number i1, Robot.getM_number i2, Robot.getM_number i3, Robot.getM_number i4,
      Robot.getM_number i5]
    rfl
  rw [hI, bind_ok (ofYaml_some _ _), Robot.getM_child ha, bind_ok (ofYaml_some _ _)]
  rw [if_pos (by rfl), show (Yaml.scalar a).asS = some a.text from rfl, bind_ok (ofYaml_some _ _), Robot.getM_child hb, bind_ok (ofYaml_some _ _),
    if_pos (by rfl), show (Yaml.scalar b).asS = some b.text from rfl, bind_ok (ofYaml_some _ _), ha', hb', three_eq, three_eq]
  have : (fun k : Fin 6 => [some (I 0), some (I 1), some (I 2), some (I 3), some (I 4), some (I 5)].getD k none) = (realV I : Fin 6 → Num) := by
    funext k
    fin_cases k <;> rfl
  rw [this]
  rfl

/-- An entry without angles is skipped. -/
theorem skips_of_entry {scan : String → List Num} {e : Option String × Yaml} {name : String} {m : ℝ} {I : Fin 6 → ℝ} (h : NoAngles e name m I) (s : St) :
    readEntry scan e s = .ok () s := by
  obtain ⟨h1, ⟨zm, hm, hm'⟩, ⟨z, hz, i0, i1, i2, i3, i4, i5⟩, o, a, ho, ha, hb⟩ := h
  unfold readEntry
  rw [h1, bind_ok (ofYaml_some _ _), Robot.getC_child hm, bind_ok (ofYaml_some _ _), Robot.getC_child hz, bind_ok (ofYaml_some _ _),
    Robot.getC_child ho, bind_ok (ofYaml_some _ _), hm', bind_ok (ofYaml_some _ _)]
  have hI : (["xx", "xy", "xz", "yy", "yz", "zz"].mapM fun k => (z.getM k).bind Yaml.asD) =
      some [some (I 0), some (I 1), some (I 2), some (I 3), some (I 4), some (I 5)] := by
    simp only [List.mapM_cons, List.mapM_nil, Robot.getM_number i0, Robot.getM_number i1, Robot.getM_number i2, Robot.getM_number i3, Robot.getM_number i4,
      Robot.getM_number i5]
    rfl
  have hb' : o.getM "rpy" = some .undef := by
    obtain ⟨l, rfl, h⟩ := hb
    simp [Yaml.getM, Yaml.lookup_isSome h]
  rw [hI, bind_ok (ofYaml_some _ _), Robot.getM_child ha, bind_ok (ofYaml_some _ _)]
  rw [if_pos (by rfl), show (Yaml.scalar a).asS = some a.text from rfl, bind_ok (ofYaml_some _ _), hb', bind_ok (ofYaml_some _ _), if_neg (by decide)]
  rfl

theorem loop_const {scan : String → List Num} : ∀ (l : List (Option String × Yaml)) (i j : ℕ),
    forIdx (fun _ => readEntry scan) i l = forIdx (fun _ => readEntry scan) j l
  | [], _, _ => rfl
  | e :: l, i, j => by rw [forIdx, forIdx, loop_const l (i + 1) (j + 1)]

theorem loop_skip {scan : String → List Num} {e : Option String × Yaml} (h : ∀ s, readEntry scan e s = .ok () s) (l' : List (Option String × Yaml)) :
    ∀ (l : List (Option String × Yaml)) (i : ℕ) (s : St), forIdx (fun _ => readEntry scan) i (l ++ e :: l') s = forIdx (fun _ => readEntry scan) i (l ++ l') s
  | [], i, s => by
    rw [List.nil_append, List.nil_append, forIdx, bind_ok (h s), loop_const]
  | x :: l, i, s => by
    rw [List.cons_append, List.cons_append, forIdx, forIdx]
    cases h1 : readEntry scan x s with
    | ok a s1 => rw [bind_ok h1, bind_ok h1, loop_skip h l' l]
    | yaml s1 => rw [bind_yaml h1, bind_yaml h1]
    | exc s1 => rw [bind_exc h1, bind_exc h1]
    | ub => rw [bind_ub h1, bind_ub h1]

/-- Reading an entry stores at most one body and is always defined. -/
theorem readEntry_cases (scan : String → List Num) (e : Option String × Yaml) (s : St) : ∃ ext : List LinkProp, ext.length ≤ 1 ∧
    (readEntry scan e s = .ok () { s with links := s.links ++ ext } ∨ readEntry scan e s = .yaml { s with links := s.links ++ ext }) := by
  have hs : s = { s with links := s.links ++ [] } := by simp
  have Y : ∀ r : Res St Unit, r = .yaml s → ∃ ext : List LinkProp, ext.length ≤ 1 ∧
      (r = .ok () { s with links := s.links ++ ext } ∨ r = .yaml { s with links := s.links ++ ext }) := fun r hr =>
    ⟨[], by simp, .inr (by rw [hr]; exact congrArg _ hs)⟩
  unfold readEntry
  cases h1 : e.1 with
  | none => exact Y _ rfl
  | some name =>
  rw [bind_ok (ofYaml_some _ _)]
  cases h2 : e.2.getC "mass" with
  | none => exact Y _ rfl
  | some mass =>
  rw [bind_ok (ofYaml_some _ _)]
  cases h3 : e.2.getC "inertia" with
  | none => exact Y _ rfl
  | some parI =>
  rw [bind_ok (ofYaml_some _ _)]
  cases h4 : e.2.getC "origin" with
  | none => exact Y _ rfl
  | some origin =>
  rw [bind_ok (ofYaml_some _ _)]
  cases h5 : mass.asD with
  | none => exact Y _ rfl
  | some m =>
  rw [bind_ok (ofYaml_some _ _)]
  cases h6 : (["xx", "xy", "xz", "yy", "yz", "zz"].mapM fun k => (parI.getM k).bind Yaml.asD) with
  | none => exact Y _ rfl
  | some I =>
  rw [bind_ok (ofYaml_some _ _)]
  cases h7 : origin.getM "xyz" with
  | none => exact Y _ rfl
  | some xyz =>
  rw [bind_ok (ofYaml_some _ _)]
  split_ifs
  swap
  · exact ⟨[], by simp, .inl (congrArg _ hs)⟩
  cases h8 : xyz.asS with
  | none => exact Y _ rfl
  | some c =>
  rw [bind_ok (ofYaml_some _ _)]
  cases h9 : origin.getM "rpy" with
  | none => exact Y _ rfl
  | some rpy =>
  rw [bind_ok (ofYaml_some _ _)]
  split_ifs
  swap
  · exact ⟨[], by simp, .inl (congrArg _ hs)⟩
  cases h10 : rpy.asS with
  | none => exact Y _ rfl
  | some a =>
  rw [bind_ok (ofYaml_some _ _)]
  exact ⟨[_], by simp, .inl rfl⟩

theorem loop_cases (scan : String → List Num) : ∀ (l : List (Option String × Yaml)) (i : ℕ) (s : St), ∃ ext : List LinkProp, ext.length ≤ l.length ∧
    (forIdx (fun _ => readEntry scan) i l s = .ok () { s with links := s.links ++ ext } ∨
      forIdx (fun _ => readEntry scan) i l s = .yaml { s with links := s.links ++ ext })
  | [], _, s => ⟨[], le_rfl, .inl (by simp [forIdx])⟩
  | e :: l, i, s => by
    obtain ⟨x, hx, h⟩ := readEntry_cases scan e s
    rcases h with h | h
    · obtain ⟨y, hy, h'⟩ := loop_cases scan l (i + 1) { s with links := s.links ++ x }
      refine ⟨x ++ y, by simp; omega, ?_⟩
      rw [forIdx, bind_ok h]
      simpa using h'
    · exact ⟨x, by simp; omega, .inr (by rw [forIdx, bind_yaml h])⟩

theorem loop_good {scan : String → List Num} : ∀ (l : List (Option String × Yaml)) (u : ℕ → LinkProp) (i : ℕ) (s : St),
    (∀ j (hj : j < l.length), Pushes scan l[j] (u j)) →
    forIdx (fun _ => readEntry scan) i l s = .ok () { s with links := s.links ++ (List.range l.length).map u }
  | [], _, _, s, _ => by simp [forIdx]
  | e :: l, u, i, s, h => by
    have h0 : readEntry scan e s = _ := h 0 (by simp) s
    rw [forIdx, bind_ok h0, loop_good l (fun j => u (j + 1)) (i + 1) _ fun j hj => h (j + 1) (by simpa using hj)]
    simp [List.range_succ_eq_map, Function.comp_def]

theorem loop_append {scan : String → List Num} : ∀ (l l' : List (Option String × Yaml)) (i : ℕ) (s s' : St),
    forIdx (fun _ => readEntry scan) i l s = .ok () s' →
    forIdx (fun _ => readEntry scan) i (l ++ l') s = forIdx (fun _ => readEntry scan) (i + l.length) l' s'
  | [], l', i, s, s', h => by
    cases h
    rfl
  | e :: l, l', i, s, s', h => by
    rw [forIdx] at h
    rw [List.cons_append, forIdx]
    cases h1 : readEntry scan e s with
    | ok a s1 =>
      rw [bind_ok h1] at h ⊢
      rw [loop_append l l' (i + 1) s1 s' h, List.length_cons]
      congr 1
      omega
    | yaml s1 => rw [bind_yaml h1] at h; cases h
    | exc s1 => rw [bind_exc h1] at h; cases h
    | ub => rw [bind_ub h1] at h; cases h

/-- Reading never fails; what is stored is at most one body for each entry. -/
theorem readFile_cases (scan : String → List Num) (file : Option Yaml) : ∃ L, readFile scan file start = .ok () ⟨L, []⟩ ∧
    L.length ≤ (file.map fun y => y.items.length).getD 0 := by
  cases file with
  | none => exact ⟨[], rfl, le_rfl⟩
  | some y =>
    obtain ⟨L, hL, h⟩ := loop_cases scan y.items 0 start
    refine ⟨L, ?_, hL⟩
    unfold readFile tryYaml
    rw [bind_ok (ofYaml_some _ _)]
    rcases h with h | h <;> (rw [h]; rfl)

/-- The first entries are stored when they are complete, whatever follows. -/
theorem readFile_prefix {scan : String → List Num} {l : List (Option String × Yaml)} {u : ℕ → LinkProp} {n : ℕ}
    (h : ∀ j < n, ∃ e, l[j]? = some e ∧ Pushes scan e (u j)) :
    ∃ ext, readFile scan (some (.map l)) start = .ok () ⟨(List.range n).map u ++ ext, []⟩ := by
  have hn : n ≤ l.length := by
    by_contra hlt
    obtain ⟨e, he, -⟩ := h l.length (by omega)
    simp at he
  have h1 := loop_good (scan := scan) (l.take n) u 0 start fun j hj => by
    rw [List.length_take] at hj
    obtain ⟨e, he, hp⟩ := h j (by omega)
    rw [List.getElem?_eq_getElem (by omega), Option.some.injEq] at he
    rw [List.getElem_take, he]
    exact hp
  rw [List.length_take, Nat.min_eq_left hn] at h1
  have h2 := loop_append (l.take n) (l.drop n) 0 start _ h1
  rw [List.take_append_drop] at h2
  obtain ⟨ext, -, h3⟩ := loop_cases scan (l.drop n) (0 + (l.take n).length) ⟨(List.range n).map u, []⟩
  refine ⟨ext, ?_⟩
  unfold readFile tryYaml
  rw [bind_ok (ofYaml_some _ _)]
  simp only [Yaml.items]
  rw [h2]
  simp only [start, List.nil_append] at h3 ⊢
  rcases h3 with h | h
  · rw [h]
  · rw [h]; rfl

/-! ## Conversion -/

theorem convert_ok {L : List LinkProp} {u : ℕ → LinkProp} (h : ∀ i < 7, L[i + 1]? = some (u (i + 1))) :
    convert L = some ((List.range 7).map fun i => transformBody (shift i) (angles i) (u (i + 1)) fresh) := by
  unfold convert
  simp [List.range_succ, h 0, h 1, h 2, h 3, h 4, h 5, h 6]

theorem convert_short {L : List LinkProp} (h : L.length < 8) : convert L = none := by
  have h7 : L[7]? = none := List.getElem?_eq_none (by omega)
  unfold convert
  simp only [List.range_succ, List.range_zero, List.nil_append, List.mapM_append, List.mapM_cons, List.mapM_nil, h7]
  simp

/-- The conversion in terms of the table. -/
theorem angles_eq {i : ℕ} (hi : i < 7) : angles i = realV ![-dhAlpha i, 0, 0] := by
  have : i = 0 ∨ i = 1 ∨ i = 2 ∨ i = 3 ∨ i = 4 ∨ i = 5 ∨ i = 6 := by omega
  rcases this with rfl | rfl | rfl | rfl | rfl | rfl | rfl <;> funext k <;> fin_cases k <;> simp [angles, dhAlpha, realV]

theorem shift_eq {i : ℕ} (hi : i < 7) : shift i = realV ![-dhA i, 0, -dhD i] := by
  have : i = 0 ∨ i = 1 ∨ i = 2 ∨ i = 3 ∨ i = 4 ∨ i = 5 ∨ i = 6 := by omega
  rcases this with rfl | rfl | rfl | rfl | rfl | rfl | rfl <;> funext k <;> fin_cases k <;> simp [shift, dhA, dhD, realV]

theorem rpyRot_angles {i : ℕ} (hi : i < 7) : rpyRot (angles i) = real3 (axX (-dhAlpha i)) := by
  rw [angles_eq hi, rpyRot_real]
  congr 1
  ext j k
  fin_cases j <;> fin_cases k <;> simp [codeRot, axX]

theorem axX_neg (t : ℝ) : axX t * axX (-t) = 1 := by
  have := sin_sq_add_cos_sq t
  ext i j
  fin_cases i <;> fin_cases j <;> simp [axX, mul_apply, Fin.sum_univ_three] <;> linarith

theorem axX_neg_transpose (t : ℝ) : (axX (-t))ᵀ = axX t := by
  ext i j
  fin_cases i <;> fin_cases j <;> simp [axX]

theorem axX_shift {i : ℕ} (hi : i < 7) : axX (dhAlpha i) *ᵥ ![-dhA i, 0, -dhD i] = -![dhA i, 0, dhD i] := by
  have : i = 0 ∨ i = 1 ∨ i = 2 ∨ i = 3 ∨ i = 4 ∨ i = 5 ∨ i = 6 := by omega
  rcases this with rfl | rfl | rfl | rfl | rfl | rfl | rfl <;> funext k <;> fin_cases k <;>
    simp [axX, dhA, dhD, dhAlpha, mulVec, dotProduct, Fin.sum_univ_three]

/-- The body in the Denavit-Hartenberg frame, with the matrix that the code computes from the angles. -/
theorem transform_code {i : ℕ} (hi : i < 7) (name : String) (m : ℝ) (c ang : Fin 3 → ℝ) (I : Fin 6 → ℝ) :
    ∃ c' J, (transformBody (shift i) (angles i) (bodyOf name m c ang I) fresh).Is m c' J ∧ dhPoint i c' = c ∧
      dhTensor i (symm3 J) = codeRot (ang 0) (ang 1) (ang 2) * symm3 I * (codeRot (ang 0) (ang 1) (ang 2))ᵀ ∧
      (transformBody (shift i) (angles i) (bodyOf name m c ang I) fresh).name = name := by
  obtain ⟨J, h1, h2, h3⟩ := C52_frame ![-dhA i, 0, -dhD i] ![-dhAlpha i, 0, 0] ang c m I (bodyOf name m c ang I) fresh ⟨rfl, rfl, rfl⟩ rfl _ _
    (by rw [← angles_eq hi]; exact rpyRot_angles hi) (rpyRot_real ang)
  rw [← shift_eq hi, ← angles_eq hi] at h1 h3
  refine ⟨_, J, h1, ?_, ?_, h3⟩
  · rw [dhPoint, mulVec_add, axX_shift hi, mulVec_mulVec, axX_neg, one_mulVec]
    abel
  · have e := axX_neg (dhAlpha i)
    have e' : (axX (-dhAlpha i))ᵀ * (axX (dhAlpha i))ᵀ = 1 := by rw [← transpose_mul, e, transpose_one]
    rw [dhTensor, h2, transpose_mul]
    calc _ = (axX (dhAlpha i) * axX (-dhAlpha i)) * (codeRot (ang 0) (ang 1) (ang 2) * symm3 I * (codeRot (ang 0) (ang 1) (ang 2))ᵀ) *
          ((axX (-dhAlpha i))ᵀ * (axX (dhAlpha i))ᵀ) := by simp only [Matrix.mul_assoc]
      _ = _ := by rw [e, e', Matrix.one_mul, Matrix.mul_one]

/-! ## The files -/

theorem node_eq {com : String} (hc : com = "m_CoM_" ∨ com = "CoM_") (l : LinkProp) : node com l =
    .map ((List.range 10).map fun k => (some ((Wrap.inertialKeys com).getD k ""), Yaml.ofD (tenOf l k))) := by
  unfold node
  rw [Yaml.foldl_setKey (base := .undef) trivial _ _ 10 (Wrap.inertialKeys_inj hc)]
  simp

theorem inertial_node {com : String} (hc : com = "m_CoM_" ∨ com = "CoM_") (l : LinkProp) : Inertial (node com l) com (tenOf l) := by
  have h : ∀ k < 10, Number (.map ((List.range 10).map fun k => (some ((Wrap.inertialKeys com).getD k ""), Yaml.ofD (tenOf l k))))
      ((Wrap.inertialKeys com).getD k "") (tenOf l k) := fun k hk =>
    ⟨_, Robot.child_of_lookup (Yaml.lookup_map (key := fun k => (Wrap.inertialKeys com).getD k "") (val := fun k => Yaml.ofD (tenOf l k)) _ (List.mem_range.2 hk)
      fun j hj h => Wrap.inertialKeys_inj hc j (List.mem_range.1 hj) k hk h), rfl⟩
  rw [node_eq hc]
  exact ⟨h 0 (by decide), h 1 (by decide), h 2 (by decide), h 3 (by decide), h 4 (by decide), h 5 (by decide), h 6 (by decide), h 7 (by decide),
    h 8 (by decide), h 9 (by decide)⟩

theorem flat_fill {com : String} (hc : com = "m_CoM_" ∨ com = "CoM_") {L : List LinkProp} {n : ℕ} {name : ℕ → String} {P : ℕ → ℕ → Num} (hn : L.length = n)
    (h : ∀ i < n, ∃ u, L[i]? = some u ∧ u.name = name i ∧ ∀ k < 10, tenOf u k = P i k) : FlatList (fill com L) n name com P := by
  refine ⟨_, rfl, by simpa using hn, fun i hi => ?_⟩
  obtain ⟨u, h1, h2, h3⟩ := h i hi
  exact ⟨node com u, by simp [h1, h2], GenYaml.inertial_congr (inertial_node hc u) h3⟩

theorem flat_congr {y : Yaml} {n : ℕ} {name name' : ℕ → String} {com : String} {P P' : ℕ → ℕ → Num} (h : FlatList y n name com P)
    (h' : ∀ i < n, name i = name' i ∧ ∀ k < 10, P i k = P' i k) : FlatList y n name' com P' := by
  obtain ⟨l, e, hl, h⟩ := h
  refine ⟨l, e, hl, fun i hi => ?_⟩
  obtain ⟨nd, h1, h2⟩ := h i hi
  exact ⟨nd, (h' i hi).1 ▸ h1, GenYaml.inertial_congr h2 (h' i hi).2⟩

theorem tenOf_is {u : LinkProp} {m : ℝ} {c : Fin 3 → ℝ} {J : Fin 6 → ℝ} (h : u.Is m c J) {k : ℕ} (hk : k < 10) :
    tenOf u k = some (tenNumbers m c (symm3 J) k) := by
  obtain ⟨h1, h2, h3⟩ := h
  unfold tenOf
  rw [h1, h2, h3]
  have : k = 0 ∨ k = 1 ∨ k = 2 ∨ k = 3 ∨ k = 4 ∨ k = 5 ∨ k = 6 ∨ k = 7 ∨ k = 8 ∨ k = 9 := by omega
  rcases this with rfl | rfl | rfl | rfl | rfl | rfl | rfl | rfl | rfl | rfl <;> rfl

theorem perturb_is {u : LinkProp} {m : ℝ} {c : Fin 3 → ℝ} {J : Fin 6 → ℝ} (h : u.Is m c J) (e : ℕ → ℝ) :
    (perturb u e).Is (m * (1 + e 0)) (fun k => c k * (1 + e (1 + k))) (fun k => J k * (1 + e (4 + k))) := by
  obtain ⟨h1, h2, h3⟩ := h
  refine ⟨?_, ?_, ?_⟩
  · simp only [perturb, h1]; rfl
  · simp only [perturb, h2]; rfl
  · simp only [perturb, h3]; rfl

theorem tenOf_regBody {u : LinkProp} {m : ℝ} {c : Fin 3 → ℝ} {J : Fin 6 → ℝ} (h : u.Is m c J) {k : ℕ} (hk : k < 10) :
    tenOf (regBody u) k = some (linPar m c (symm3 J) k) := by
  obtain ⟨h1, h2, h3⟩ := h
  have : k = 0 ∨ k = 1 ∨ k = 2 ∨ k = 3 ∨ k = 4 ∨ k = 5 ∨ k = 6 ∨ k = 7 ∨ k = 8 ∨ k = 9 := by omega
  rcases this with rfl | rfl | rfl | rfl | rfl | rfl | rfl | rfl | rfl | rfl <;>
    simp [tenOf, regBody, h1, h2, h3, realV, parI6, add3, createI, steinerWrap, scale3, mul3, tr3, hatN, linPar, originInertia, hat, symm3,
      Matrix.mul_apply, Fin.sum_univ_three] <;> ring

end Thunder.Urdf
