import Verif.Lemmas.Robot
import Verif.Lemmas.WrapperFile
import Verif.Spec.File

/-!
# Class `Robot`: setters and files
-/

open scoped Classical

namespace Thunder

theorem SMap.put_put {α : Type} (m : SMap α) (k : String) (a b : α) : SMap.put (SMap.put m k a) k b = SMap.put m k b := by
  induction m with
  | nil => simp [SMap.put]
  | cons p t ih =>
    obtain ⟨k', v'⟩ := p
    by_cases h : k' = k
    · simp [SMap.put, h]
    · by_cases h2 : k < k'
      · simp [SMap.put, h, h2]
      · simp [SMap.put, h, h2, ih]

namespace Robot

open Act Wrap Spec

theorem setArgs_touch (r : Robot) (k : String) (v : List Num) : (r.touchArg k).setArgs k v = r.setArgs k v := by
  simp only [touchArg, setArgs, SMap.ins]
  split
  · rfl
  · rw [SMap.put_put]

theorem touch_of_has {r : Robot} {k : String} (h : r.args.has k = true) : r.touchArg k = r := by
  simp [touchArg, SMap.ins, h]

theorem has_of_arg {r : Robot} {k : String} (h : r.arg k ≠ []) : r.args.has k = true := by
  unfold Robot.arg SMap.get at h
  unfold SMap.has
  cases e : r.args.find k with
  | none => rw [e] at h; exact absurd rfl h
  | some a => rfl

theorem assign_ok {k : String} {xs : List Num} {r : Robot} (h : xs.length = (r.arg k).length) : assign k xs r = .ok () (r.setArgs k xs) := by
  unfold assign
  rw [bind_ok (read_run r), if_pos (show xs.length ≤ (r.arg k).length by omega), modify_run, List.drop_eq_nil_of_le (by omega), List.append_nil]

theorem setSized_ok {k : String} {s : ℕ} {v : List Num} {r : Robot} (h : (r.arg k).length = s) (hv : v.length = s) :
    setSized k s v r = .ok 1 (r.setArgs k v) := by
  unfold setSized
  rw [bind_ok (modify_run _ _), if_pos hv, bind_ok (assign_ok (by rw [arg_touch]; omega)), setArgs_touch]
  rfl

theorem setSized_wrong {k : String} {s : ℕ} {v : List Num} {r : Robot} (hv : v.length ≠ s) :
    setSized k s v r = .ok 0 (r.touchArg k) := by
  unfold setSized
  rw [bind_ok (modify_run _ _), if_neg hv]
  rfl

theorem getPar10_ok {k : String} {r : Robot} (h : (r.arg k).length = 10 * r.n) : getPar10 k r = .ok (r.arg k) (r.touchArg k) := by
  unfold getPar10
  rw [bind_ok (modify_run _ _), bind_ok (read_run _), arg_touch, show (r.touchArg k).n = r.n from rfl, fill, if_pos (by omega), h]
  simp

theorem length_regOfDyn (n : ℕ) (p : List Num) : (regOfDyn n p).length = 10 * n := by
  rw [← regOfDynW_eq, length_regOfDynW]
theorem length_dynOfReg (n : ℕ) (p : List Num) : (dynOfReg n p).length = 10 * n := by
  rw [← dynOfRegW_eq, length_dynOfRegW]

theorem updateREG_ok {r : Robot} (hd : (r.arg "par_DYN").length = 10 * r.n) (hr : (r.arg "par_REG").length = 10 * r.n) :
    updateREG r = .ok 1 ((r.touchArg "par_DYN").setArgs "par_REG" (regOfDyn r.n (r.arg "par_DYN"))) := by
  unfold updateREG getParDYN
  rw [bind_ok (getPar10_ok hd), bind_ok (read_run _)]
  unfold setParREG
  rw [bind_ok (s' := (r.touchArg "par_DYN").setArgs "par_REG" (regOfDyn r.n (r.arg "par_DYN"))) (a := 1)]
  · rfl
  · rw [bind_ok (read_run _)]
    exact setSized_ok (by rw [arg_touch]; exact hr) (length_regOfDyn _ _)

theorem updateDYN_ok {r : Robot} (hd : (r.arg "par_DYN").length = 10 * r.n) (hr : (r.arg "par_REG").length = 10 * r.n) :
    updateDYN r = .ok 1 ((r.touchArg "par_REG").setArgs "par_DYN" (dynOfReg r.n (r.arg "par_REG"))) := by
  unfold updateDYN getParREG
  rw [bind_ok (getPar10_ok hr), bind_ok (read_run _)]
  unfold setParDYN
  rw [bind_ok (s' := (r.touchArg "par_REG").setArgs "par_DYN" (dynOfReg r.n (r.arg "par_REG"))) (a := 1)]
  · rfl
  · rw [bind_ok (read_run _)]
    exact setSized_ok (by rw [arg_touch]; exact hd) (length_dynOfReg _ _)

/-! ## Trees -/

theorem lookup_child {y z : Yaml} {k : String} (h : Child y k z) : ∃ l, y = .map l ∧ Yaml.lookup k l = some z := by
  obtain ⟨l₁, l₂, rfl, h1⟩ := h
  refine ⟨_, rfl, ?_⟩
  have : List.find? (fun p : Option String × Yaml => p.1 == some k) l₁ = none := by
    rw [List.find?_eq_none]
    intro e he
    simpa using h1 e he
  simp [Yaml.lookup, List.find?_append, this]

theorem getM_child {y z : Yaml} {k : String} (h : Child y k z) : y.getM k = some z := by
  obtain ⟨l, rfl, h1⟩ := lookup_child h
  simp [Yaml.getM, h1]
theorem getC_child {y z : Yaml} {k : String} (h : Child y k z) : y.getC k = some z := by
  obtain ⟨l, rfl, h1⟩ := lookup_child h
  simp [Yaml.getC, h1]
theorem getC_noChild {y : Yaml} {k : String} (h : NoChild y k) : y.getC k = some .zombie := by
  obtain ⟨l, rfl, h1⟩ := h
  simp [Yaml.getC, Yaml.lookup_isSome h1]

theorem getM_number {y : Yaml} {k : String} {x : Num} (h : Number y k x) : (y.getM k).bind Yaml.asD = some x := by
  obtain ⟨z, h1, h2⟩ := h
  rw [getM_child h1]; exact h2
theorem getC_number {y : Yaml} {k : String} {x : Num} (h : Number y k x) : (y.getC k).bind Yaml.asD = some x := by
  obtain ⟨z, h1, h2⟩ := h
  rw [getC_child h1]; exact h2

theorem getC_numbers {y : Yaml} {k : String} {m : ℕ} {f : ℕ → Num} (h : Numbers y k m f) :
    ∃ xs, (y.getC k).bind (Yaml.asVec Yaml.asD) = some xs ∧ m ≤ xs.length ∧ ∀ j < m, xs[j]? = some (f j) := by
  obtain ⟨z, xs, h1, h2, h3, h4⟩ := h
  exact ⟨xs, by rw [getC_child h1]; exact h2, h3, h4⟩

/-! ## Loops that write consecutive entries -/

theorem set_splice {v : List Num} {i : ℕ} (x : Num) (h : i < v.length) : v.set i x = splice v i [x] := by
  rw [List.set_eq_take_append_cons_drop, if_pos h]
  simp [splice]

theorem getElem?_splice {v xs : List Num} {off : ℕ} (h : off + xs.length ≤ v.length) (a : ℕ) :
    (splice v off xs)[a]? = if a < off then v[a]? else if a < off + xs.length then xs[a - off]? else v[a]? := by
  unfold splice
  rw [List.append_assoc, List.getElem?_append, List.length_take, List.getElem?_append]
  have : min off v.length = off := by omega
  rw [this]
  split_ifs with h1 h2 h3 h3
  · rw [List.getElem?_take, if_pos h1]
  · rfl
  · omega
  · omega
  · rw [List.getElem?_drop]; congr 1; omega

theorem readKeys_ok {nd : Yaml} : ∀ (ks : List String) (pos : ℕ) (s : Loc) (xs : List Num),
    ks.mapM (fun key => (nd.getM key).bind Yaml.asD) = some xs → pos + ks.length ≤ s.p.length →
    readKeys nd ks pos s = .ok () { s with p := splice s.p pos xs }
  | [], pos, s, xs, e, _ => by
    rw [List.mapM_nil] at e; cases e
    rw [splice_nil]; rfl
  | key :: ks, pos, s, xs, e, h => by
    obtain ⟨x, xs', h1, h2, rfl⟩ := mapM_cons_some e
    rw [List.length_cons] at h
    unfold readKeys
    rw [h1, bind_ok (ofYaml_some _ _), bind_ok (read_run _), wr, if_pos (by omega), bind_ok (ofExc_some _ _), bind_ok (modify_run _ _)]
    rw [readKeys_ok ks (pos + 1) _ xs' h2 (by simp; omega)]
    simp only
    rw [set_splice _ (by omega), show pos + 1 = pos + [x].length from rfl, splice_splice (by simp; omega)]
    rfl

theorem readKeysC_ok {nd : Yaml} : ∀ (ks : List String) (pos : ℕ) (s : Loc) (xs : List Num),
    ks.mapM (fun key => (nd.getC key).bind Yaml.asD) = some xs → pos + ks.length ≤ s.p.length →
    regLinks.readKeysC nd ks pos s = .ok () { s with p := splice s.p pos xs }
  | [], pos, s, xs, e, _ => by
    rw [List.mapM_nil] at e; cases e
    rw [splice_nil]; rfl
  | key :: ks, pos, s, xs, e, h => by
    obtain ⟨x, xs', h1, h2, rfl⟩ := mapM_cons_some e
    rw [List.length_cons] at h
    unfold regLinks.readKeysC
    rw [h1, bind_ok (ofYaml_some _ _), bind_ok (read_run _), wr, if_pos (by omega), bind_ok (ofExc_some _ _), bind_ok (modify_run _ _)]
    rw [readKeysC_ok ks (pos + 1) _ xs' h2 (by simp; omega)]
    simp only
    rw [set_splice _ (by omega), show pos + 1 = pos + [x].length from rfl, splice_splice (by simp; omega)]
    rfl

theorem inertial_keys {y : Yaml} {com : String} {p : ℕ → Num} (h : Inertial y com p) {g : Yaml → String → Option Yaml}
    (hg : ∀ {k x}, Number y k x → (g y k).bind Yaml.asD = some x) :
    (keys com).mapM (fun key => (g y key).bind Yaml.asD) = some ((List.range 10).map p) := by
  obtain ⟨h0, h1, h2, h3, h4, h5, h6, h7, h8, h9⟩ := h
  simp only [keys, List.mapM_cons, List.mapM_nil, hg h0, hg h1, hg h2, hg h3, hg h4, hg h5, hg h6, hg h7, hg h8, hg h9]
  rfl

/-- A vector inside the local variables. -/
structure Lens (get : Loc → List Num) (set : Loc → List Num → Loc) : Prop where
  get_set : ∀ s v, get (set s v) = v
  set_set : ∀ s v w, set (set s v) w = set s w
  set_get : ∀ s, set s (get s) = s

theorem lens_dl : Lens Loc.dl (fun s v => { s with dl := v }) := ⟨fun _ _ => rfl, fun _ _ _ => rfl, fun _ => rfl⟩
theorem lens_k : Lens Loc.k (fun s v => { s with k := v }) := ⟨fun _ _ => rfl, fun _ _ _ => rfl, fun _ => rfl⟩
theorem lens_d : Lens Loc.d (fun s v => { s with d := v }) := ⟨fun _ _ => rfl, fun _ _ _ => rfl, fun _ => rfl⟩
theorem lens_dm : Lens Loc.dm (fun s v => { s with dm := v }) := ⟨fun _ _ => rfl, fun _ _ _ => rfl, fun _ => rfl⟩

theorem copyOrd_ok {get : Loc → List Num} {set : Loc → List Num → Loc} (L : Lens get set) {ord i : ℕ} {xs : List Num} (hx : ord ≤ xs.length) :
    ∀ (m : ℕ) (s : Loc), m ≤ ord → ord * i + ord ≤ (get s).length →
    copyOrd get set ord i xs m s = .ok () (set s (splice (get s) (ord * i + (ord - m)) ((xs.take ord).drop (ord - m))))
  | 0, s, _, _ => by
    rw [List.drop_eq_nil_of_le (by simp), splice_nil, L.set_get]; rfl
  | m + 1, s, hm, h => by
    unfold copyOrd
    have hj : ord - (m + 1) < xs.length := by omega
    simp only
    rw [List.getElem?_eq_getElem hj, bind_ok (ofIdx_some _ _), bind_ok (read_run _), wr, if_pos (by omega), bind_ok (ofExc_some _ _),
      bind_ok (modify_run _ _), copyOrd_ok L hx m _ (by omega) (by rw [L.get_set, List.length_set]; exact h), L.get_set, L.set_set]
    rw [set_splice _ (by omega)]
    have e1 : ord * i + (ord - m) = ord * i + (ord - (m + 1)) + [xs[ord - (m + 1)]].length := by simp; omega
    have e2 : (xs.take ord).drop (ord - (m + 1)) = [xs[ord - (m + 1)]] ++ (xs.take ord).drop (ord - m) := by
      rw [List.drop_eq_getElem_cons (by simp; omega), List.getElem_take]
      congr 2; omega
    rw [e1, splice_splice (by simp; omega), e2]

/-- Writing row `i`. -/
theorem copyOrd_row {get : Loc → List Num} {set : Loc → List Num → Loc} (L : Lens get set) {ord i : ℕ} {xs : List Num} (hx : ord ≤ xs.length)
    {s : Loc} (h : ord * i + ord ≤ (get s).length) :
    copyOrd get set ord i xs ord s = .ok () (set s (splice (get s) (ord * i) (xs.take ord))) := by
  rw [copyOrd_ok L hx ord s le_rfl h]; simp

/-- The rows from `i` on are still to be written. -/
structure RowsFrom (v : List Num) (n m i : ℕ) (f : ℕ → ℕ → Num) : Prop where
  len : v.length = m * n
  rows : ∀ a < n, i ≤ a → ∀ j < m, v[m * a + j]? = some (f a j)

theorem row_lt {m n a j : ℕ} (ha : a < n) (hj : j < m) : m * a + j < m * n :=
  calc m * a + j < m * a + m := by omega
    _ = m * (a + 1) := by ring
    _ ≤ m * n := Nat.mul_le_mul_left _ ha

theorem row_fit {m n i : ℕ} (hi : i < n) : m * i + m ≤ m * n :=
  calc m * i + m = m * (i + 1) := by ring
    _ ≤ m * n := Nat.mul_le_mul_left _ hi

/-- Entries written before row `i` are kept by writing row `i`. -/
theorem splice_before {v xs : List Num} {m n i a : ℕ} (hv : v.length = m * n) (hi : i < n) (hx : xs.length = m) (ha : a < m * i) :
    (splice v (m * i) xs)[a]? = v[a]? := by
  rw [getElem?_splice (by rw [hx, hv]; exact row_fit hi), if_pos ha]

theorem splice_row {v xs : List Num} {m n i j : ℕ} (hv : v.length = m * n) (hi : i < n) (hx : xs.length = m) (hj : j < m) :
    (splice v (m * i) xs)[m * i + j]? = xs[j]? := by
  rw [getElem?_splice (by rw [hx, hv]; exact row_fit hi), if_neg (by omega), if_pos (by omega)]
  congr 1; omega

theorem splice_after {v xs : List Num} {m n i a : ℕ} (hv : v.length = m * n) (hi : i < n) (hx : xs.length = m) (ha : m * i + m ≤ a) :
    (splice v (m * i) xs)[a]? = v[a]? := by
  rw [getElem?_splice (by rw [hx, hv]; exact row_fit hi), if_neg (by omega), if_neg (by omega)]

theorem length_splice_row {v xs : List Num} {m n i : ℕ} (hv : v.length = m * n) (hi : i < n) (hx : xs.length = m) :
    (splice v (m * i) xs).length = m * n := by
  rw [length_splice (by rw [hx, hv]; exact row_fit hi), hv]

/-- The loop over the links on a well-formed list. -/
theorem confLinks_ok {n ord : ℕ} {P DL : ℕ → ℕ → Num} : ∀ (l : List (Option String × Yaml)) (i : ℕ) (s : Loc), i ≤ n → n ≤ i + l.length →
    (∀ a < n, i ≤ a → ∃ key nd, l[a - i]? = some (some key, nd) ∧ LinkEntry nd (P a) ord (DL a)) → (∀ e ∈ l, ∃ m, e.2 = .map m) →
    s.p.length = 10 * n → s.dl.length = ord * n → (∀ a, ord * i ≤ a → a < ord * n → s.dl[a]? = some (some 0)) →
    ∃ s', confLinks n ord i l s = .ok () s' ∧ s'.p.length = 10 * n ∧ s'.dl.length = ord * n ∧
      (∀ a < 10 * i, s'.p[a]? = s.p[a]?) ∧ (∀ a < ord * i, s'.dl[a]? = s.dl[a]?) ∧
      (∀ a < n, i ≤ a → ∀ k < 10, s'.p[10 * a + k]? = some (P a k)) ∧ (∀ a < n, i ≤ a → ∀ j < ord, s'.dl[ord * a + j]? = some (DL a j)) ∧
      s'.k = s.k ∧ s'.d = s.d ∧ s'.dm = s.dm ∧ s'.mm = s.mm
  | [], i, s, hi, hn, _, _, hp, hd, _ => by
    simp at hn
    have : i = n := by omega
    subst this
    exact ⟨s, rfl, hp, hd, fun _ _ => rfl, fun _ _ => rfl, fun a h1 h2 => by omega, fun a h1 h2 => by omega, rfl, rfl, rfl, rfl⟩
  | (key, nd) :: l, i, s, hi, hn, hl, hm, hp, hd, hz => by
    obtain ⟨m, hnd⟩ := hm _ List.mem_cons_self
    simp only at hnd
    have hin : ∃ z, nd.getC "inertial" = some z := by subst hnd; exact ⟨_, rfl⟩
    obtain ⟨ine, hine⟩ := hin
    unfold confLinks
    rw [hine, bind_ok (ofYaml_some _ _)]
    by_cases hin : i = n
    · subst hin
      rw [if_pos rfl]
      exact ⟨s, rfl, hp, hd, fun _ _ => rfl, fun _ _ => rfl, fun a h1 h2 => by omega, fun a h1 h2 => by omega, rfl, rfl, rfl, rfl⟩
    · have hi' : i < n := by omega
      rw [if_neg hin]
      obtain ⟨key', nd', h1, h2, h3⟩ := hl i hi' le_rfl
      simp only [Nat.sub_self, List.getElem?_cons_zero, Option.some.injEq, Prod.mk.injEq] at h1
      obtain ⟨rfl, rfl⟩ := h1
      obtain ⟨z, hz1, hz2⟩ := h2
      rw [getC_child hz1] at hine
      cases hine
      rw [bind_ok (ofYaml_some _ _), bind_ok (readKeys_ok _ _ _ _ (inertial_keys (g := Yaml.getM) hz2 getM_number)
        (by rw [hp]; simp only [keys, List.length_cons, List.length_nil]; omega))]
      have hP : ((List.range 10).map (P i)).length = 10 := by simp
      -- the rest of the loop, for any friction row
      have hl' : ∀ a < n, i + 1 ≤ a → ∃ key nd, l[a - (i + 1)]? = some (some key, nd) ∧ LinkEntry nd (P a) ord (DL a) := by
        intro a ha hia
        obtain ⟨key, nd, e, hL⟩ := hl a ha (by omega)
        refine ⟨key, nd, ?_, hL⟩
        rw [show a - i = (a - (i + 1)) + 1 by omega, List.getElem?_cons_succ] at e
        exact e
      have rest : ∀ d' : List Num, d'.length = ord * n → (∀ a < ord * i, d'[a]? = s.dl[a]?) → (∀ j < ord, d'[ord * i + j]? = some (DL i j)) →
          (∀ a, ord * (i + 1) ≤ a → a < ord * n → d'[a]? = some (some 0)) →
          ∃ s', confLinks n ord (i + 1) l { s with p := splice s.p (10 * i) ((List.range 10).map (P i)), dl := d' } = .ok () s' ∧
            s'.p.length = 10 * n ∧ s'.dl.length = ord * n ∧
            (∀ a < 10 * i, s'.p[a]? = s.p[a]?) ∧ (∀ a < ord * i, s'.dl[a]? = s.dl[a]?) ∧
            (∀ a < n, i ≤ a → ∀ k < 10, s'.p[10 * a + k]? = some (P a k)) ∧ (∀ a < n, i ≤ a → ∀ j < ord, s'.dl[ord * a + j]? = some (DL a j)) ∧
            s'.k = s.k ∧ s'.d = s.d ∧ s'.dm = s.dm ∧ s'.mm = s.mm := by
        intro d' hd1 hd2 hd3 hd4
        obtain ⟨s', e, g1, g2, g3, g4, g5, g6, g7⟩ := confLinks_ok l (i + 1)
          { s with p := splice s.p (10 * i) ((List.range 10).map (P i)), dl := d' } (by omega) (by simp at hn; omega) hl'
          (fun e he => hm e (List.mem_cons_of_mem _ he)) (length_splice_row hp hi' hP) hd1 hd4
        simp only at g3 g4 g7
        have hle : ord * (i + 1) = ord * i + ord := by ring
        refine ⟨s', e, g1, g2, fun a ha => ?_, fun a ha => ?_, fun a ha hia k hk => ?_, fun a ha hia j hj => ?_, g7⟩
        · rw [g3 a (by omega), splice_before hp hi' hP ha]
        · rw [g4 a (by omega), hd2 a ha]
        · rcases Nat.eq_or_lt_of_le hia with rfl | hlt
          · rw [g3 _ (by omega), splice_row hp hi' hP hk]; simp [hk]
          · exact g5 a ha hlt k hk
        · rcases Nat.eq_or_lt_of_le hia with rfl | hlt
          · rw [g4 _ (by omega), hd3 j hj]
          · exact g6 a ha hlt j hj
      have hle : ord * (i + 1) = ord * i + ord := by ring
      rcases h3 with ⟨h3, h4⟩ | ⟨z', h3, h4⟩
      · rw [getC_noChild h3, bind_ok (ofYaml_some _ _)]
        simp only [Yaml.isDef, Bool.false_eq_true]
        refine rest s.dl hd (fun _ _ => rfl) (fun j hj => ?_) (fun a h1 h2 => hz a (by omega) h2)
        rw [hz _ (by omega) (row_lt hi' hj), h4 j hj]
      · obtain ⟨xs, hx1, hx2, hx3⟩ := getC_numbers h4
        have hdef : z'.isDef = true := by
          obtain ⟨z2, _, hc, _⟩ := h4
          obtain ⟨l', rfl, _⟩ := lookup_child hc
          rfl
        rw [getC_child h3, bind_ok (ofYaml_some _ _), hdef]
        simp only [if_true]
        have hx4 : (xs.take ord).length = ord := by simp; omega
        rw [hx1, bind_ok (ofYaml_some _ _), copyDl, bind_ok (copyOrd_row lens_dl hx2 (by simp only; rw [hd]; exact row_fit hi'))]
        refine rest _ (length_splice_row hd hi' hx4) (fun a ha => splice_before hd hi' hx4 ha) (fun j hj => ?_)
          (fun a h1 h2 => ?_)
        · simp only
          rw [splice_row hd hi' hx4 hj, List.getElem?_take, if_pos hj, hx3 j hj]
        · simp only
          rw [splice_after hd hi' hx4 (by omega), hz a (by omega) h2]

/-- The loop of `load_par_REG` on a well-formed list. -/
theorem regLinks_ok {n ord : ℕ} {P DL : ℕ → ℕ → Num} : ∀ (l : List (Option String × Yaml)) (i : ℕ) (s : Loc), i ≤ n → n ≤ i + l.length →
    (∀ a < n, i ≤ a → ∃ key nd, l[a - i]? = some (some key, nd) ∧ RegEntry nd (P a) ord (DL a)) →
    s.p.length = 10 * n → s.dl.length = ord * n → (∀ a, ord * i ≤ a → a < ord * n → s.dl[a]? = some (some 0)) →
    ∃ s', regLinks n ord i l s = .ok () s' ∧ s'.p.length = 10 * n ∧ s'.dl.length = ord * n ∧
      (∀ a < 10 * i, s'.p[a]? = s.p[a]?) ∧ (∀ a < ord * i, s'.dl[a]? = s.dl[a]?) ∧
      (∀ a < n, i ≤ a → ∀ k < 10, s'.p[10 * a + k]? = some (P a k)) ∧ (∀ a < n, i ≤ a → ∀ j < ord, s'.dl[ord * a + j]? = some (DL a j)) ∧
      s'.k = s.k ∧ s'.d = s.d ∧ s'.dm = s.dm ∧ s'.mm = s.mm
  | [], i, s, hi, hn, _, hp, hd, _ => by
    simp at hn
    have : i = n := by omega
    subst this
    exact ⟨s, rfl, hp, hd, fun _ _ => rfl, fun _ _ => rfl, fun a h1 h2 => by omega, fun a h1 h2 => by omega, rfl, rfl, rfl, rfl⟩
  | (key, nd) :: l, i, s, hi, hn, hl, hp, hd, hz => by
    unfold regLinks
    by_cases hin : i = n
    · subst hin
      rw [if_pos rfl]
      exact ⟨s, rfl, hp, hd, fun _ _ => rfl, fun _ _ => rfl, fun a h1 h2 => by omega, fun a h1 h2 => by omega, rfl, rfl, rfl, rfl⟩
    · have hi' : i < n := by omega
      rw [if_neg hin]
      obtain ⟨key', nd', h1, h2, h3⟩ := hl i hi' le_rfl
      simp only [Nat.sub_self, List.getElem?_cons_zero, Option.some.injEq, Prod.mk.injEq] at h1
      obtain ⟨rfl, rfl⟩ := h1
      rw [bind_ok (ofYaml_some _ _), bind_ok (readKeysC_ok _ _ _ _ (inertial_keys (g := Yaml.getC) h2 getC_number)
        (by rw [hp]; simp only [keys, List.length_cons, List.length_nil]; omega))]
      have hP : ((List.range 10).map (P i)).length = 10 := by simp
      -- the rest of the loop, for any friction row
      have hl' : ∀ a < n, i + 1 ≤ a → ∃ key nd, l[a - (i + 1)]? = some (some key, nd) ∧ RegEntry nd (P a) ord (DL a) := by
        intro a ha hia
        obtain ⟨key, nd, e, hL⟩ := hl a ha (by omega)
        refine ⟨key, nd, ?_, hL⟩
        rw [show a - i = (a - (i + 1)) + 1 by omega, List.getElem?_cons_succ] at e
        exact e
      have rest : ∀ d' : List Num, d'.length = ord * n → (∀ a < ord * i, d'[a]? = s.dl[a]?) → (∀ j < ord, d'[ord * i + j]? = some (DL i j)) →
          (∀ a, ord * (i + 1) ≤ a → a < ord * n → d'[a]? = some (some 0)) →
          ∃ s', regLinks n ord (i + 1) l { s with p := splice s.p (10 * i) ((List.range 10).map (P i)), dl := d' } = .ok () s' ∧
            s'.p.length = 10 * n ∧ s'.dl.length = ord * n ∧
            (∀ a < 10 * i, s'.p[a]? = s.p[a]?) ∧ (∀ a < ord * i, s'.dl[a]? = s.dl[a]?) ∧
            (∀ a < n, i ≤ a → ∀ k < 10, s'.p[10 * a + k]? = some (P a k)) ∧ (∀ a < n, i ≤ a → ∀ j < ord, s'.dl[ord * a + j]? = some (DL a j)) ∧
            s'.k = s.k ∧ s'.d = s.d ∧ s'.dm = s.dm ∧ s'.mm = s.mm := by
        intro d' hd1 hd2 hd3 hd4
        obtain ⟨s', e, g1, g2, g3, g4, g5, g6, g7⟩ := regLinks_ok l (i + 1)
          { s with p := splice s.p (10 * i) ((List.range 10).map (P i)), dl := d' } (by omega) (by simp at hn; omega) hl'
          (length_splice_row hp hi' hP) hd1 hd4
        simp only at g3 g4 g7
        have hle : ord * (i + 1) = ord * i + ord := by ring
        refine ⟨s', e, g1, g2, fun a ha => ?_, fun a ha => ?_, fun a ha hia k hk => ?_, fun a ha hia j hj => ?_, g7⟩
        · rw [g3 a (by omega), splice_before hp hi' hP ha]
        · rw [g4 a (by omega), hd2 a ha]
        · rcases Nat.eq_or_lt_of_le hia with rfl | hlt
          · rw [g3 _ (by omega), splice_row hp hi' hP hk]; simp [hk]
          · exact g5 a ha hlt k hk
        · rcases Nat.eq_or_lt_of_le hia with rfl | hlt
          · rw [g4 _ (by omega), hd3 j hj]
          · exact g6 a ha hlt j hj
      have hle : ord * (i + 1) = ord * i + ord := by ring
      rcases h3 with ⟨h3, h4⟩ | ⟨z', xs, h3, hx1, hx2, hx3⟩
      · rw [getC_noChild h3, bind_ok (ofYaml_some _ _)]
        simp only [Yaml.isDef, Bool.false_eq_true]
        refine rest s.dl hd (fun _ _ => rfl) (fun j hj => ?_) (fun a h1 h2 => hz a (by omega) h2)
        rw [hz _ (by omega) (row_lt hi' hj), h4 j hj]
      · have hdef : z'.isDef = true := by
          cases z' <;> first | rfl | cases hx1
        rw [getC_child h3, bind_ok (ofYaml_some _ _), hdef]
        simp only [if_true]
        have hx4 : (xs.take ord).length = ord := by simp; omega
        rw [hx1, bind_ok (ofYaml_some _ _), copyDl, bind_ok (copyOrd_row lens_dl hx2 (by simp only; rw [hd]; exact row_fit hi'))]
        refine rest _ (length_splice_row hd hi' hx4) (fun a ha => splice_before hd hi' hx4 ha) (fun j hj => ?_)
          (fun a h1 h2 => ?_)
        · simp only
          rw [splice_row hd hi' hx4 hj, List.getElem?_take, if_pos hj, hx3 j hj]
        · simp only
          rw [splice_after hd hi' hx4 (by omega), hz a (by omega) h2]

/-- One block of the loop over the elastic joints. -/
theorem readOrd_ok {key : String} {get : Loc → List Num} {set : Loc → List Num → Loc} (L : Lens get set) {ord n i : ℕ} {nd : Yaml} {f : ℕ → Num}
    (h : 0 < ord → Numbers nd key ord f) {s : Loc} (hs : (get s).length = ord * n) (hi : i < n) :
    ∃ v, readOrd key get set ord i nd s = .ok () (set s v) ∧ v.length = ord * n ∧ (∀ a < ord * i, v[a]? = (get s)[a]?) ∧
      ∀ j < ord, v[ord * i + j]? = some (f j) := by
  unfold readOrd
  by_cases h0 : 0 < ord
  · rw [if_pos h0]
    obtain ⟨xs, hx1, hx2, hx3⟩ := getC_numbers (h h0)
    have hx4 : (xs.take ord).length = ord := by simp; omega
    rw [hx1, bind_ok (ofYaml_some _ _), copyOrd_row L hx2 (by rw [hs]; exact row_fit hi)]
    refine ⟨_, rfl, length_splice_row hs hi hx4, fun a ha => splice_before hs hi hx4 ha, fun j hj => ?_⟩
    rw [splice_row hs hi hx4 hj, List.getElem?_take, if_pos hj, hx3 j hj]
  · rw [if_neg h0]
    refine ⟨get s, by rw [L.set_get]; rfl, hs, fun _ _ => rfl, fun j hj => by omega⟩

/-- What the loop over the elastic joints leaves in one of the vectors. -/
def RowsAfter (v w : List Num) (n ord i : ℕ) (F : ℕ → ℕ → Num) : Prop :=
  w.length = ord * n ∧ (∀ a < ord * i, w[a]? = v[a]?) ∧ ∀ a < n, i ≤ a → ∀ j < ord, w[ord * a + j]? = some (F a j)

theorem RowsAfter.step {v v' w : List Num} {n ord i : ℕ} {F : ℕ → ℕ → Num} (h : RowsAfter v' w n ord (i + 1) F)
    (h1 : ∀ a < ord * i, v'[a]? = v[a]?) (h2 : ∀ j < ord, v'[ord * i + j]? = some (F i j)) : RowsAfter v w n ord i F := by
  obtain ⟨g1, g2, g3⟩ := h
  have hle : ord * (i + 1) = ord * i + ord := by ring
  refine ⟨g1, fun a ha => by rw [g2 a (by omega), h1 a ha], fun a ha hia j hj => ?_⟩
  rcases Nat.eq_or_lt_of_le hia with rfl | hlt
  · rw [g2 _ (by omega), h2 j hj]
  · exact g3 a ha hlt j hj

theorem confJoints_ok {r : Robot} {K D Dm : ℕ → ℕ → Num} {Mm : ℕ → Num} : ∀ (l : List (Option String × Yaml)) (i : ℕ) (s : Loc),
    i ≤ r.ne → r.ne ≤ i + l.length → (∀ a < r.ne, i ≤ a → ∃ key nd, l[a - i]? = some (some key, nd) ∧
      JointEntry nd r.kOrd (K a) r.dOrd (D a) r.dmOrd (Dm a) (Mm a)) →
    s.k.length = r.kOrd * r.ne → s.d.length = r.dOrd * r.ne → s.dm.length = r.dmOrd * r.ne → s.mm.length = r.ne →
    ∃ s', confJoints r i l s = .ok () s' ∧ s'.p = s.p ∧ s'.dl = s.dl ∧ RowsAfter s.k s'.k r.ne r.kOrd i K ∧
      RowsAfter s.d s'.d r.ne r.dOrd i D ∧ RowsAfter s.dm s'.dm r.ne r.dmOrd i Dm ∧ RowsAfter s.mm s'.mm r.ne 1 i fun a _ => Mm a
  | [], i, s, hi, hn, _, h1, h2, h3, h4 => by
    simp at hn
    have : i = r.ne := by omega
    subst this
    refine ⟨s, rfl, rfl, rfl, ⟨h1, fun _ _ => rfl, fun a h1 h2 => by omega⟩, ⟨h2, fun _ _ => rfl, fun a h1 h2 => by omega⟩,
      ⟨h3, fun _ _ => rfl, fun a h1 h2 => by omega⟩, ⟨by omega, fun _ _ => rfl, fun a h1 h2 => by omega⟩⟩
  | (key, nd) :: l, i, s, hi, hn, hl, h1, h2, h3, h4 => by
    unfold confJoints
    by_cases hin : i = r.ne
    · subst hin
      rw [if_pos rfl]
      refine ⟨s, rfl, rfl, rfl, ⟨h1, fun _ _ => rfl, fun a h1 h2 => by omega⟩, ⟨h2, fun _ _ => rfl, fun a h1 h2 => by omega⟩,
        ⟨h3, fun _ _ => rfl, fun a h1 h2 => by omega⟩, ⟨by omega, fun _ _ => rfl, fun a h1 h2 => by omega⟩⟩
    · have hi' : i < r.ne := by omega
      rw [if_neg hin]
      obtain ⟨key', nd', e, j1, j2, j3, j4⟩ := hl i hi' le_rfl
      simp only [Nat.sub_self, List.getElem?_cons_zero, Option.some.injEq, Prod.mk.injEq] at e
      obtain ⟨rfl, rfl⟩ := e
      obtain ⟨v1, e1, a1, b1, c1⟩ := readOrd_ok (key := "K") lens_k j1 (s := s) h1 hi'
      obtain ⟨v2, e2, a2, b2, c2⟩ := readOrd_ok (key := "D") lens_d j2 (s := { s with k := v1 }) h2 hi'
      obtain ⟨v3, e3, a3, b3, c3⟩ := readOrd_ok (key := "Dm") lens_dm j3 (s := { s with k := v1, d := v2 }) h3 hi'
      rw [bind_ok (ofYaml_some _ _), bind_ok e1, bind_ok e2, bind_ok e3, getC_number j4, bind_ok (ofYaml_some _ _), bind_ok (read_run _),
        wr, if_pos (by simp only; omega), bind_ok (ofExc_some _ _), bind_ok (modify_run _ _)]
      have hl' : ∀ a < r.ne, i + 1 ≤ a → ∃ key nd, l[a - (i + 1)]? = some (some key, nd) ∧
          JointEntry nd r.kOrd (K a) r.dOrd (D a) r.dmOrd (Dm a) (Mm a) := by
        intro a ha hia
        obtain ⟨key, nd, e, hL⟩ := hl a ha (by omega)
        refine ⟨key, nd, ?_, hL⟩
        rw [show a - i = (a - (i + 1)) + 1 by omega, List.getElem?_cons_succ] at e
        exact e
      obtain ⟨s', e, g1, g2, g3, g4, g5, g6⟩ := confJoints_ok l (i + 1)
        { s with k := v1, d := v2, dm := v3, mm := s.mm.set i (Mm i) } (by omega) (by simp at hn; omega) hl' a1 a2 a3
        (by simp only [List.length_set]; exact h4)
      refine ⟨s', e, g1, g2, g3.step b1 c1, g4.step b2 c2, g5.step b3 c3, g6.step (fun a ha => ?_) fun j hj => ?_⟩
      · simp only
        rw [List.getElem?_set_ne (by omega)]
      · have : j = 0 := by omega
        subst this
        simp only [one_mul, add_zero]
        rw [List.getElem?_set_self (by omega)]

theorem zeros_get {k a : ℕ} (h : a < k) : (zeros k)[a]? = some (some 0) := by simp [zeros, h]

theorem orders_swap (a b : ℕ) : (zeros (a * b)).length = b * a := by simp [zeros, Nat.mul_comm]

/-- `load_conf_par` up to the update of `par_REG`. -/
theorem confBody_ok {r : Robot} {y : Yaml} {P DL K D Dm : ℕ → ℕ → Num} {Mm : ℕ → Num} (hd : DynamicsSection y r.n P r.dlOrd DL)
    (he : r.elastic = true → ElasticJoints y r.ne r.kOrd K r.dOrd D r.dmOrd Dm Mm) :
    ∃ l, confBody r (some y) (Loc.init r) = .ok () l ∧ Rows l.p r.n 10 P ∧ Rows l.dl r.n r.dlOrd DL ∧ (r.elastic = true →
      Rows l.k r.ne r.kOrd K ∧ Rows l.d r.ne r.dOrd D ∧ Rows l.dm r.ne r.dmOrd Dm ∧ Rows l.mm r.ne 1 fun a _ => Mm a) := by
  obtain ⟨items, hc, hlen, hl, hm⟩ := hd
  obtain ⟨s, e, g1, g2, -, -, g5, g6, g7, g8, g9, g10⟩ := confLinks_ok (n := r.n) (ord := r.dlOrd) (P := P) (DL := DL) items 0 (Loc.init r)
    (by omega) (by omega) (fun a ha _ => hl a ha) hm (by simp [Loc.init, zeros]) (by simp [Loc.init, zeros])
    (fun a _ h => zeros_get h)
  unfold confBody
  rw [bind_ok (ofYaml_some _ _), getM_child hc, bind_ok (ofYaml_some _ _), show (Yaml.map items).items = items from rfl, bind_ok e]
  cases hel : r.elastic with
  | false =>
    refine ⟨s, rfl, ⟨g1, fun i hi j hj => g5 i hi (by omega) j hj⟩, ⟨g2, fun i hi j hj => g6 i hi (by omega) j hj⟩, fun h => by cases h⟩
  | true =>
    obtain ⟨el, js, c1, c2, c3, c4⟩ := he hel
    obtain ⟨s', e', k1, k2, k3, k4, k5, k6⟩ := confJoints_ok (K := K) (D := D) (Dm := Dm) (Mm := Mm) js 0 s (by omega) (by omega)
      (fun a ha _ => c4 a ha) (by rw [g7]; exact orders_swap _ _) (by rw [g8]; exact orders_swap _ _) (by rw [g9]; exact orders_swap _ _)
      (by rw [g10]; simp [Loc.init, zeros])
    have hdef : el.isDef = true := by obtain ⟨l', rfl, _⟩ := lookup_child c2; rfl
    simp only [if_true]
    rw [getM_child c1, bind_ok (ofYaml_some _ _), hdef]
    simp only [if_true]
    rw [getM_child c2, bind_ok (ofYaml_some _ _), show (Yaml.map js).items = js from rfl]
    refine ⟨s', e', ?_, ?_, fun _ => ⟨⟨k3.1, fun i hi j hj => k3.2.2 i hi (by omega) j hj⟩, ⟨k4.1, fun i hi j hj => k4.2.2 i hi (by omega) j hj⟩,
      ⟨k5.1, fun i hi j hj => k5.2.2 i hi (by omega) j hj⟩, ⟨k6.1, fun i hi j hj => k6.2.2 i hi (by omega) j hj⟩⟩⟩
    · rw [k1]; exact ⟨g1, fun i hi j hj => g5 i hi (by omega) j hj⟩
    · rw [k2]; exact ⟨g2, fun i hi j hj => g6 i hi (by omega) j hj⟩

/-- `load_par_REG` up to the assignments. -/
theorem regBody_ok {r : Robot} {y : Yaml} {P DL : ℕ → ℕ → Num} (hd : InertialSection y r.n P r.dlOrd DL) :
    ∃ l, regBody r (some y) (Loc.init r) = .ok () l ∧ Rows l.p r.n 10 P ∧ Rows l.dl r.n r.dlOrd DL := by
  obtain ⟨items, hc, hlen, hl⟩ := hd
  obtain ⟨s, e, g1, g2, -, -, g5, g6, -⟩ := regLinks_ok (n := r.n) (ord := r.dlOrd) (P := P) (DL := DL) items 0 (Loc.init r)
    (by omega) (by omega) (fun a ha _ => hl a ha) (by simp [Loc.init, zeros]) (by simp [Loc.init, zeros]) (fun a _ h => zeros_get h)
  unfold regBody
  rw [bind_ok (ofYaml_some _ _), getM_child hc, bind_ok (ofYaml_some _ _), show (Yaml.map items).items = items from rfl, e]
  exact ⟨s, rfl, ⟨g1, fun i hi j hj => g5 i hi (by omega) j hj⟩, ⟨g2, fun i hi j hj => g6 i hi (by omega) j hj⟩⟩

theorem find_setArgs (r : Robot) (k : String) (v : List Num) (k₂ : String) :
    (r.setArgs k v).args.find k₂ = if k = k₂ then some v else r.args.find k₂ := SMap.find_put _ _ _ _

/-- A robot changed only in its arguments. -/
def ArgsOnly (r r' : Robot) : Prop := r' = { r with args := r'.args }
theorem ArgsOnly.refl (r : Robot) : ArgsOnly r r := rfl
theorem ArgsOnly.trans {a b c : Robot} (h : ArgsOnly a b) (g : ArgsOnly b c) : ArgsOnly a c := by
  unfold ArgsOnly at *; rw [g, h]
theorem argsOnly_set (r : Robot) (k : String) (v : List Num) : ArgsOnly r (r.setArgs k v) := rfl

theorem find_setWhen {r : Robot} {c : Prop} [Decidable c] (k : String) (v : List Num) (k₂ : String) :
    (setWhen c k v r).args.find k₂ = if c ∧ k = k₂ then some v else r.args.find k₂ := by
  unfold setWhen
  by_cases h : c <;> simp [h, find_setArgs]

theorem argsOnly_setWhen {r : Robot} {c : Prop} [Decidable c] (k : String) (v : List Num) : ArgsOnly r (setWhen c k v r) := by
  unfold setWhen
  split_ifs
  · exact argsOnly_set _ _ _
  · exact ArgsOnly.refl _

theorem argsOnly_storeConf (l : Loc) (r : Robot) : ArgsOnly r (storeConf l r) :=
  (((((argsOnly_set r "par_DYN" l.p).trans (argsOnly_setWhen "par_Dl" l.dl)).trans (argsOnly_setWhen "par_K" l.k)).trans
    (argsOnly_setWhen "par_D" l.d)).trans (argsOnly_setWhen "par_Dm" l.dm)).trans (argsOnly_setWhen "par_Mm" l.mm)

theorem find_storeConf (l : Loc) (r : Robot) (k : String) : (storeConf l r).args.find k =
    if r.elastic = true ∧ "par_Mm" = k then some l.mm else if 0 < r.dmOrd ∧ "par_Dm" = k then some l.dm else
    if 0 < r.dOrd ∧ "par_D" = k then some l.d else if 0 < r.kOrd ∧ "par_K" = k then some l.k else
    if 0 < r.dlOrd ∧ "par_Dl" = k then some l.dl else if "par_DYN" = k then some l.p else r.args.find k := by
  unfold storeConf
  rw [find_setWhen, find_setWhen, find_setWhen, find_setWhen, find_setWhen, find_setArgs]

theorem arg_of_find {r : Robot} {k : String} {v : List Num} (h : r.args.find k = some v) : r.arg k = v := by
  simp [Robot.arg, SMap.get, h]

/-! ## `save_par` and `load_par` -/

/-- The trees built by `save_par`. -/
structure Saved (f : String → List Num) (S : List String) (y : Yaml) : Prop where
  shape : y = .null ∨ ∃ l, y = .map l
  val : ∀ e ∈ y.items, ∃ k ∈ S, e = (some k, Yaml.ofVec (f k))
  all : ∀ k ∈ S, (some k, Yaml.ofVec (f k)) ∈ y.items

theorem saved_setKey {f : String → List Num} {S : List String} {y : Yaml} (h : Saved f S y) (k : String) :
    Saved f (S ++ [k]) (y.setKey k (Yaml.ofVec (f k))) := by
  rcases h.shape with rfl | ⟨l, rfl⟩
  · refine ⟨.inr ⟨_, rfl⟩, fun e he => ?_, fun k' hk' => ?_⟩
    · simp only [Yaml.setKey, Yaml.items, List.mem_singleton] at he
      exact ⟨k, by simp, he⟩
    · rcases List.mem_append.mp hk' with h1 | h1
      · exact absurd (h.all k' h1) (by simp [Yaml.items])
      · rw [List.mem_singleton.mp h1]; simp [Yaml.setKey, Yaml.items]
  · have hval : ∀ e ∈ l, ∃ k ∈ S, e = (some k, Yaml.ofVec (f k)) := h.val
    have hall : ∀ k ∈ S, (some k, Yaml.ofVec (f k)) ∈ l := h.all
    simp only [Yaml.setKey]
    split_ifs with hk
    · have e : l.map (fun p => if p.1 == some k then (p.1, Yaml.ofVec (f k)) else p) = l := by
        conv_rhs => rw [← List.map_id l]
        refine List.map_congr_left fun e he => ?_
        obtain ⟨k', _, rfl⟩ := hval e he
        by_cases e2 : k' = k
        · subst e2; simp
        · simp [e2]
      rw [e]
      refine ⟨.inr ⟨l, rfl⟩, fun e he => ?_, fun k' hk' => ?_⟩
      · obtain ⟨k', h1, h2⟩ := hval e he
        exact ⟨k', List.mem_append_left _ h1, h2⟩
      · rcases List.mem_append.mp hk' with h1 | h1
        · exact hall k' h1
        · rw [List.mem_singleton.mp h1]
          obtain ⟨a, ha⟩ := Option.isSome_iff_exists.mp hk
          simp only [Yaml.lookup, Option.map_eq_some_iff] at ha
          obtain ⟨e, he, rfl⟩ := ha
          have hmem := List.mem_of_find?_eq_some he
          have hkey : e.1 = some k := by simpa using List.find?_some he
          obtain ⟨k'', _, rfl⟩ := hval e hmem
          simp only [Option.some.injEq] at hkey
          subst hkey
          exact hmem
    · refine ⟨.inr ⟨_, rfl⟩, fun e he => ?_, fun k' hk' => ?_⟩
      · rcases List.mem_append.mp he with h1 | h1
        · obtain ⟨k', h1, h2⟩ := hval e h1
          exact ⟨k', List.mem_append_left _ h1, h2⟩
        · exact ⟨k, by simp, List.mem_singleton.mp h1⟩
      · rcases List.mem_append.mp hk' with h1 | h1
        · exact List.mem_append_left _ (hall k' h1)
        · rw [List.mem_singleton.mp h1]; exact List.mem_append_right _ (by simp)

theorem saveLoop_ok {f : String → List Num} : ∀ (L S : List String) (y : Yaml) (r : Robot), Saved f S y → r.arg = f →
    ∃ y' r', saveLoop L y r = .ok y' r' ∧ Saved f (S ++ L) y' ∧ Sim r r'
  | [], S, y, r, h, _ => ⟨y, r, rfl, by simpa using h, Sim.refl r⟩
  | k :: L, S, y, r, h, hf => by
    unfold saveLoop getArg
    rw [bind_ok (s' := r.touchArg k) (a := f k)]
    · obtain ⟨y', r', e, h1, h2⟩ := saveLoop_ok L (S ++ [k]) _ (r.touchArg k) (saved_setKey h k)
        (by funext k₂; rw [arg_touch, hf])
      refine ⟨y', r', e, ?_, (sim_touch r k).trans h2⟩
      rw [List.append_assoc] at h1
      simpa using h1
    · rw [bind_ok (modify_run _ _), bind_ok (read_run _), arg_touch, hf]; rfl

/-- Effect of assigning `f k` to the arguments `k ∈ L`. -/
structure Restored (f : String → List Num) (L : List String) (r r' : Robot) : Prop where
  only : ArgsOnly r r'
  val : ∀ k ∈ L, r'.arg k = f k
  rest : ∀ k, k ∉ L → r'.args.find k = r.args.find k

theorem Restored.cons {f : String → List Num} {L : List String} {k : String} {r r' : Robot}
    (h : Restored f L (r.setArgs k (f k)) r') : Restored f (k :: L) r r' := by
  refine ⟨(argsOnly_set r k (f k)).trans h.only, fun k' hk' => ?_, fun k' hk' => ?_⟩
  · by_cases hL : k' ∈ L
    · exact h.val k' hL
    · rcases List.mem_cons.mp hk' with rfl | h1
      · have := h.rest k' hL
        rw [find_setArgs, if_pos rfl] at this
        exact arg_of_find this
      · exact absurd h1 hL
  · rw [h.rest k' (fun h1 => hk' (List.mem_cons_of_mem _ h1)), find_setArgs, if_neg]
    rintro rfl; exact hk' List.mem_cons_self

theorem loadAll_ok {f : String → List Num} : ∀ (ks : List String) (r : Robot), (∀ k ∈ ks, (r.arg k).length = (f k).length) →
    ∃ r', loadAll (ks.map fun k => (some k, Yaml.ofVec (f k))) r = .ok () r' ∧ Restored f ks r r'
  | [], r, _ => ⟨r, rfl, ArgsOnly.refl r, fun _ h => by simp at h, fun _ _ => rfl⟩
  | k :: ks, r, h => by
    rw [List.map_cons]
    unfold loadAll
    rw [Yaml.asVec_ofVec, bind_ok (ofYaml_some _ _), bind_ok (ofYaml_some _ _), bind_ok (modify_run _ _),
      bind_ok (assign_ok (by rw [arg_touch, h k List.mem_cons_self])), setArgs_touch]
    obtain ⟨r', e, hr⟩ := loadAll_ok (f := f) ks (r.setArgs k (f k)) (fun k' hk' => by
      rw [arg_setArgs]; split_ifs with e
      · rw [e]
      · exact h k' (List.mem_cons_of_mem _ hk'))
    exact ⟨r', e, hr.cons⟩

theorem loadSome_ok {f : String → List Num} {y : Yaml} : ∀ (ks : List String) (r : Robot),
    (∀ k ∈ ks, y.getM k = some (Yaml.ofVec (f k))) → (∀ k ∈ ks, (r.arg k).length = (f k).length) →
    ∃ r', loadSome y ks r = .ok () r' ∧ Restored f ks r r'
  | [], r, _, _ => ⟨r, rfl, ArgsOnly.refl r, fun _ h => by simp at h, fun _ _ => rfl⟩
  | k :: ks, r, hy, h => by
    unfold loadSome
    rw [hy k List.mem_cons_self, Option.bind_some, Yaml.asVec_ofVec, bind_ok (ofYaml_some _ _), bind_ok (modify_run _ _),
      bind_ok (assign_ok (by rw [arg_touch, h k List.mem_cons_self])), setArgs_touch]
    obtain ⟨r', e, hr⟩ := loadSome_ok (f := f) ks (r.setArgs k (f k)) (fun k' hk' => hy k' (List.mem_cons_of_mem _ hk')) (fun k' hk' => by
      rw [arg_setArgs]; split_ifs with e
      · rw [e]
      · exact h k' (List.mem_cons_of_mem _ hk'))
    exact ⟨r', e, hr.cons⟩

theorem saved_getM {f : String → List Num} {S : List String} {y : Yaml} (h : Saved f S y) {k : String} (hk : k ∈ S) :
    y.getM k = some (Yaml.ofVec (f k)) := by
  have h1 := h.all k hk
  rcases h.shape with rfl | ⟨l, rfl⟩
  · simp [Yaml.items] at h1
  · simp only [Yaml.getM, Option.some.injEq]
    have hs : (List.find? (fun p : Option String × Yaml => p.1 == some k) l).isSome := by
      rw [List.find?_isSome]; exact ⟨_, h1, by simp⟩
    obtain ⟨e, he⟩ := Option.isSome_iff_exists.mp hs
    have hmem := List.mem_of_find?_eq_some he
    have hkey : e.1 = some k := by simpa using List.find?_some he
    obtain ⟨k', _, rfl⟩ := h.val e hmem
    simp only [Option.some.injEq] at hkey
    subst hkey
    simp [Yaml.lookup, he]

theorem saved_items {f : String → List Num} {S : List String} {y : Yaml} (h : Saved f S y) :
    ∃ ks : List String, y.items = ks.map (fun k => (some k, Yaml.ofVec (f k))) ∧ (∀ k, k ∈ ks ↔ k ∈ S) := by
  have : ∀ l : List (Option String × Yaml), (∀ e ∈ l, ∃ k ∈ S, e = (some k, Yaml.ofVec (f k))) →
      ∃ ks : List String, l = ks.map (fun k => (some k, Yaml.ofVec (f k))) ∧ ∀ k ∈ ks, k ∈ S := by
    intro l
    induction l with
    | nil => intro _; exact ⟨[], rfl, fun _ h => by simp at h⟩
    | cons e l ih =>
      intro hl
      obtain ⟨ks, rfl, h2⟩ := ih fun e he => hl e (List.mem_cons_of_mem _ he)
      obtain ⟨k, hk, rfl⟩ := hl e List.mem_cons_self
      refine ⟨k :: ks, rfl, fun k' hk' => ?_⟩
      rcases List.mem_cons.mp hk' with rfl | h3
      · exact hk
      · exact h2 k' h3
  obtain ⟨ks, h1, h2⟩ := this y.items h.val
  refine ⟨ks, h1, fun k => ⟨h2 k, fun hk => ?_⟩⟩
  have := h.all k hk
  rw [h1] at this
  obtain ⟨k', hk', e⟩ := List.mem_map.mp this
  simp only [Prod.mk.injEq, Option.some.injEq] at e
  rw [← e.1]; exact hk'

theorem loadPar_saved {f : String → List Num} {L : List String} {y : Yaml} (h : Saved f L y) {r : Robot}
    (hr : ∀ k ∈ L, (r.arg k).length = (f k).length) {names : List String} (hn : names = L ∨ names = []) :
    ∃ r', loadPar (some y) names r = .ok 1 r' ∧ Restored f L r r' := by
  unfold loadPar Act.tryYaml
  rw [bind_ok (ofYaml_some _ _)]
  by_cases h0 : names = []
  · rw [if_pos h0]
    obtain ⟨ks, e, hks⟩ := saved_items h
    obtain ⟨r', e2, h2⟩ := loadAll_ok (f := f) ks r fun k hk => hr k ((hks k).1 hk)
    refine ⟨r', ?_, h2.only, fun k hk => h2.val k ((hks k).2 hk), fun k hk => h2.rest k fun h3 => hk ((hks k).1 h3)⟩
    rw [e, bind_ok e2]
    rfl
  · rw [if_neg h0]
    obtain rfl := hn.resolve_right h0
    obtain ⟨r', e2, h2⟩ := loadSome_ok (f := f) (y := y) names r (fun k hk => saved_getM h hk) hr
    exact ⟨r', by rw [bind_ok e2]; rfl, h2⟩

end Robot

end Thunder
