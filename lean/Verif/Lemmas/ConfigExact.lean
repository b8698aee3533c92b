import Verif.Spec.ConfigExact
import Verif.Lemmas.Config
import Verif.Lemmas.Construct

/-!
# Lemmas for the exact form of C38
-/

namespace Thunder

open Spec Act

set_option linter.unusedSimpArgs false

namespace Act

variable {σ α β : Type} {s s' : σ}

theorem bind_ub_iff {x : Act σ α} {f : α → Act σ β} : (x >>= f) s = .ub ↔ x s = .ub ∨ ∃ a s', x s = .ok a s' ∧ f a s' = .ub := by
  rw [bind_def]
  cases e : x s <;> simp
theorem bind_ok_iff {x : Act σ α} {f : α → Act σ β} {b : β} : (x >>= f) s = .ok b s' ↔ ∃ a t, x s = .ok a t ∧ f a t = .ok b s' := by
  rw [bind_def]
  cases e : x s <;> simp
theorem ofYaml_ok_iff {o : Option α} {a : α} : ofYaml o s = .ok a s' ↔ o = some a ∧ s' = s := by
  cases o <;> simp [eq_comm]
theorem ofYaml_ub_iff {o : Option α} : ofYaml o s = .ub ↔ False := by
  cases o <;> simp
theorem ofExc_ok_iff {o : Option α} {a : α} : ofExc o s = .ok a s' ↔ o = some a ∧ s' = s := by
  cases o <;> simp [eq_comm]
theorem ofExc_ub_iff {o : Option α} : ofExc o s = .ub ↔ False := by
  cases o <;> simp
theorem ofIdx_ok_iff {o : Option α} {a : α} : ofIdx o s = .ok a s' ↔ o = some a ∧ s' = s := by
  cases o <;> simp [eq_comm]
theorem ofIdx_ub_iff {o : Option α} : ofIdx o s = .ub ↔ o = none := by
  cases o <;> simp
theorem modify_ok_iff {f : σ → σ} {a : Unit} : modify f s = .ok a s' ↔ s' = f s := by
  simp [eq_comm]
theorem modify_ub_iff {f : σ → σ} : modify f s = .ub ↔ False := by simp
theorem pure_ok_iff {a b : α} : (pure a : Act σ α) s = .ok b s' ↔ b = a ∧ s' = s := by simp [eq_comm]
theorem pure_ub_iff {a : α} : (pure a : Act σ α) s = .ub ↔ False := by simp
theorem read_ok_iff {t : σ} : read s = .ok t s' ↔ t = s ∧ s' = s := by simp [eq_comm]
theorem read_ub_iff : (read : Act σ σ) s = .ub ↔ False := by simp

end Act

namespace Robot

variable {α : Type}

/-! ## Lookups in a document -/

theorem _root_.Thunder.Spec.Parsed.child {y z : Yaml} {k : String} (hy : Parsed y) (h : Child y k z) : Parsed z := by
  obtain ⟨l₁, l₂, rfl, -⟩ := h
  cases hy with
  | map h => exact h _ (List.mem_append_right _ List.mem_cons_self)

theorem _root_.Thunder.Spec.Parsed.isDef {y : Yaml} (hy : Parsed y) : y.isDef = true := by cases hy <;> rfl

theorem noChild_or_child {l : List (Option String × Yaml)} {k : String} : NoChild (.map l) k ∨ ∃ z, Child (.map l) k z := by
  cases e : Yaml.lookup k l with
  | none =>
    left
    refine ⟨l, rfl, fun e' he hk => ?_⟩
    unfold Yaml.lookup at e
    rw [Option.map_eq_none_iff, List.find?_eq_none] at e
    exact e e' he (by simp [hk])
  | some z => exact .inr ⟨z, child_of_lookup e⟩

theorem missing_child {y z : Yaml} {k : String} (h : Missing y k) (h' : Child y k z) : False := by
  rcases h with h | rfl | ⟨l, rfl⟩
  · exact noChild_child h h'
  · obtain ⟨_, _, h, _⟩ := h'; cases h
  · obtain ⟨_, _, h, _⟩ := h'; cases h

theorem getM_missing {y : Yaml} {k : String} (h : Missing y k) : y.getM k = some .undef := by
  rcases h with h | rfl | ⟨l, rfl⟩
  · exact getM_noChild h
  · rfl
  · rfl
theorem getC_missing {y : Yaml} {k : String} (h : Missing y k) : y.getC k = some .zombie := by
  rcases h with h | rfl | ⟨l, rfl⟩
  · exact getC_noChild h
  · rfl
  · rfl

theorem getM_iff {y z : Yaml} {k : String} (hy : Parsed y) : y.getM k = some z ↔ Child y k z ∨ (Missing y k ∧ z = .undef) := by
  constructor
  · intro h
    cases hy with
    | null => cases h; exact .inr ⟨.inr (.inl rfl), rfl⟩
    | scalar s => cases h
    | seq _ => cases h; exact .inr ⟨.inr (.inr ⟨_, rfl⟩), rfl⟩
    | map hl =>
      rcases noChild_or_child (k := k) with h' | ⟨w, h'⟩
      · rw [getM_noChild h'] at h; cases h; exact .inr ⟨.inl h', rfl⟩
      · rw [getM_child h'] at h; cases h; exact .inl h'
  · rintro (h | ⟨h, rfl⟩)
    · exact getM_child h
    · exact getM_missing h
theorem getC_iff {y z : Yaml} {k : String} (hy : Parsed y) : y.getC k = some z ↔ Child y k z ∨ (Missing y k ∧ z = .zombie) := by
  constructor
  · intro h
    cases hy with
    | null => cases h; exact .inr ⟨.inr (.inl rfl), rfl⟩
    | scalar s => cases h
    | seq _ => cases h; exact .inr ⟨.inr (.inr ⟨_, rfl⟩), rfl⟩
    | map hl =>
      rcases noChild_or_child (k := k) with h' | ⟨w, h'⟩
      · rw [getC_noChild h'] at h; cases h; exact .inr ⟨.inl h', rfl⟩
      · rw [getC_child h'] at h; cases h; exact .inl h'
  · rintro (h | ⟨h, rfl⟩)
    · exact getC_child h
    · exact getC_missing h

/-- Value of `opt`. -/
def optV (f : Yaml → Option α) (d : α) (y : Yaml) : Option α := if y.isDef then f y else some d

theorem opt_eq (f : Yaml → Option α) (d : α) (y : Yaml) : opt f d y = (Act.ofYaml (optV f d y) : Act Part α) := by
  unfold opt optV
  split_ifs <;> rfl

theorem at1_iff {f : Yaml → Option α} (hf : f .undef = none) {y : Yaml} {k : String} {a : α} : (y.getM k).bind f = some a ↔ Entry f y k a :=
  ⟨entry_of_getM hf, getM_entry⟩

theorem optM_iff {f : Yaml → Option α} {d : α} {y : Yaml} {k : String} {a : α} (hy : Parsed y) :
    (∃ z, y.getM k = some z ∧ optV f d z = some a) ↔ OptEntry f d y k a := by
  constructor
  · rintro ⟨z, hz, ha⟩
    rcases (getM_iff hy).1 hz with h | ⟨h, rfl⟩
    · rw [optV, if_pos (hy.child h).isDef] at ha
      exact .inr ⟨z, h, ha⟩
    · cases ha
      exact .inl ⟨h, rfl⟩
  · rintro (⟨h, rfl⟩ | ⟨z, h, ha⟩)
    · exact ⟨_, getM_missing h, rfl⟩
    · exact ⟨z, getM_child h, by rw [optV, if_pos (hy.child h).isDef]; exact ha⟩
theorem optC_iff {f : Yaml → Option α} {d : α} {y : Yaml} {k : String} {a : α} (hy : Parsed y) :
    (∃ z, y.getC k = some z ∧ optV f d z = some a) ↔ OptEntry f d y k a := by
  constructor
  · rintro ⟨z, hz, ha⟩
    rcases (getC_iff hy).1 hz with h | ⟨h, rfl⟩
    · rw [optV, if_pos (hy.child h).isDef] at ha
      exact .inr ⟨z, h, ha⟩
    · cases ha
      exact .inl ⟨h, rfl⟩
  · rintro (⟨h, rfl⟩ | ⟨z, h, ha⟩)
    · exact ⟨_, getC_missing h, rfl⟩
    · exact ⟨z, getC_child h, by rw [optV, if_pos (hy.child h).isDef]; exact ha⟩

/-! ## The parts of `parse` -/

/-- Members after the first part. -/
def headPart (s : Part) (h : Heading) : Part :=
  { s with nj := some h.m, types := h.types, dlI := h.dl, elastic := h.elastic, kI := h.k, dI := h.d, dmI := h.dm }

theorem parseBasic_ub {y : Yaml} {s : Part} : parseBasic y s ≠ .ub := by
  unfold parseBasic
  simp only [at1, opt_eq, ne_eq, bind_ub_iff, bind_ok_iff, ofYaml_ok_iff, ofYaml_ub_iff, modify_ok_iff, modify_ub_iff, false_or, not_exists, not_and]
  intros
  split_ifs <;>
  simp only [at1, opt_eq, ne_eq, bind_ub_iff, bind_ok_iff, ofYaml_ok_iff, ofYaml_ub_iff, modify_ok_iff, modify_ub_iff, pure_ub_iff, false_or, not_exists, not_and,
    not_false_iff, implies_true]

theorem parseBasic_iff {y : Yaml} (hy : Parsed y) {s s' : Part} {m : ℤ} : parseBasic y s = .ok m s' ↔ ∃ h, HeadingOf y h ∧ m = h.m ∧ s' = headPart s h := by
  unfold parseBasic
  simp only [at1, opt_eq, bind_ok_iff, ofYaml_ok_iff, modify_ok_iff, at1_iff (f := Yaml.asI) rfl, at1_iff (f := Yaml.asVec Yaml.asS) rfl]
  constructor
  · rintro ⟨nj, _, ⟨hnj, rfl⟩, _, _, rfl, ts, _, ⟨hts, rfl⟩, _, _, rfl, z, _, ⟨hz, rfl⟩, dl, _, ⟨hdl, rfl⟩, _, _, rfl, w, _, ⟨hw, rfl⟩, on, _, ⟨hon, rfl⟩, h⟩
    have h1 := (optM_iff hy).1 ⟨z, hz, hdl⟩
    have h2 := (optM_iff hy).1 ⟨w, hw, hon⟩
    cases on with
    | false =>
      simp only [Bool.false_eq_true, if_false, pure_ok_iff] at h
      obtain ⟨rfl, rfl⟩ := h
      exact ⟨⟨m, ts, dl, false, 0, 0, 0⟩, ⟨hnj, hts, h1, h2, fun _ => ⟨rfl, rfl, rfl⟩, fun h => by cases h⟩, rfl, rfl⟩
    | true =>
      simp only [if_true, pure_ok_iff, bind_ok_iff, modify_ok_iff, ofYaml_ok_iff, at1_iff (f := Yaml.asI) rfl] at h
      obtain ⟨_, _, rfl, el, _, ⟨hel, rfl⟩, k, _, ⟨hk, rfl⟩, _, _, rfl, d, _, ⟨hd, rfl⟩, _, _, rfl, dm, _, ⟨hdm, rfl⟩, _, _, rfl, rfl, rfl⟩ := h
      refine ⟨⟨m, ts, dl, true, k, d, dm⟩, ⟨hnj, hts, h1, h2, fun h => (by cases h), fun _ => ⟨el, ?_, hk, hd, hdm⟩⟩, rfl, rfl⟩
      rcases (getM_iff hy).1 hel with h | ⟨-, rfl⟩
      · exact h
      · obtain ⟨_, ⟨_, _, h, _⟩, _⟩ := hk; cases h
  · rintro ⟨⟨m', ts, dl, on, k, d, dm⟩, ⟨hnj, hts, h1, h2, h3, h4⟩, rfl, rfl⟩
    obtain ⟨z, hz, hdl⟩ := (optM_iff hy).2 h1
    obtain ⟨w, hw, hon⟩ := (optM_iff hy).2 h2
    refine ⟨m, _, ⟨hnj, rfl⟩, (), _, rfl, ts, _, ⟨hts, rfl⟩, (), _, rfl, z, _, ⟨hz, rfl⟩, dl, _, ⟨hdl, rfl⟩, (), _, rfl, w, _, ⟨hw, rfl⟩, on, _, ⟨hon, rfl⟩, ?_⟩
    cases on with
    | false =>
      obtain ⟨rfl, rfl, rfl⟩ := h3 rfl
      rfl
    | true =>
      obtain ⟨el, hel, hk, hd, hdm⟩ := h4 rfl
      simp only [if_true, pure_ok_iff, bind_ok_iff, modify_ok_iff, ofYaml_ok_iff, at1_iff (f := Yaml.asI) rfl]
      exact ⟨(), _, rfl, el, _, ⟨getM_child hel, rfl⟩, k, _, ⟨hk, rfl⟩, (), _, rfl, d, _, ⟨hd, rfl⟩, (), _, rfl, dm, _, ⟨hdm, rfl⟩, (), _, rfl, trivial, rfl⟩

theorem classify_ub {nj : ℤ} {s : Part} : classify nj s = .ub ↔ 0 ≤ nj ∧ (s.types.length : ℤ) < nj := by
  unfold classify
  simp only [bind_ub_iff, bind_ok_iff, modify_ok_iff, modify_ub_iff, ofExc_ok_iff, ofExc_ub_iff, read_ok_iff, read_ub_iff, ofIdx_ub_iff, false_or, and_false,
    exists_false, or_false]
  constructor
  · rintro ⟨_, _, rfl, _, _, ⟨h0, rfl⟩, _, _, ⟨rfl, rfl⟩, h1⟩
    split_ifs at h0 h1 with h2 h3
    exact ⟨h2, by simp only at h3; omega⟩
  · rintro ⟨h0, h1⟩
    exact ⟨(), _, rfl, (), _, ⟨by rw [if_pos h0], rfl⟩, _, _, ⟨rfl, rfl⟩, by rw [if_neg (by simp only; omega)]⟩

theorem classify_iff {nj : ℤ} {s s' : Part} {a : Unit} : classify nj s = .ok a s' ↔ 0 ≤ nj ∧ nj ≤ s.types.length ∧
    s' = { s with isEla := (s.types.take nj.toNat).map fun t => if isSEA t then 1 else 0, ne := (s.types.take nj.toNat).countP isSEA } := by
  unfold classify
  simp only [bind_ok_iff, modify_ok_iff, ofExc_ok_iff, read_ok_iff, ofIdx_ok_iff]
  constructor
  · rintro ⟨_, _, rfl, _, _, ⟨h0, rfl⟩, _, _, ⟨rfl, rfl⟩, _, _, ⟨h1, rfl⟩, rfl⟩
    split_ifs at h0 h1 with h2 h3
    exact ⟨h2, by simp only at h3; omega, rfl⟩
  · rintro ⟨h0, h1, rfl⟩
    exact ⟨(), _, rfl, (), _, ⟨by rw [if_pos h0], rfl⟩, _, _, ⟨rfl, rfl⟩, (), _, ⟨by rw [if_pos (by simp only; omega)], rfl⟩, rfl⟩

theorem parseNums_ub {y : Yaml} {s : Part} : parseNums y s ≠ .ub := by
  unfold parseNums
  simp only [at1, opt_eq, ne_eq, bind_ub_iff, bind_ok_iff, ofYaml_ok_iff, ofYaml_ub_iff, pure_ub_iff, false_or, not_exists, not_and, not_false_iff,
    implies_true]

theorem parseNums_iff {y : Yaml} (hy : Parsed y) {s s' : Part} {g : List Num} {off : List (List Num)} : (∃ v, parseNums y s = .ok v s' ∧ 
      v.g = g ∧ [v.btr, v.bypr, v.etr, v.eypr] = off) ↔ s' = s ∧ VectorsOf y g off := by
  have sec : ∀ {k k' : String} {z : Yaml} {a : List Num}, y.getM k = some z → Entry (Yaml.asVec Yaml.asD) z k' a → Child y k z := by
    intro k k' z a h h'
    rcases (getM_iff hy).1 h with h | ⟨-, rfl⟩
    · exact h
    · obtain ⟨_, ⟨_, _, h, _⟩, _⟩ := h'; cases h
  unfold parseNums
  simp only [at1, opt_eq, bind_ok_iff, ofYaml_ok_iff, pure_ok_iff, at1_iff (f := Yaml.asVec Yaml.asD) rfl]
  constructor
  · rintro ⟨v, ⟨kin, _, ⟨hkin, rfl⟩, dh, _, ⟨hdh, rfl⟩, gr, _, ⟨hgr, rfl⟩, g', _, ⟨hg, rfl⟩, fb, _, ⟨hfb, rfl⟩, btr, _, ⟨hbtr, rfl⟩, bypr, _, ⟨hbypr, rfl⟩,
      fe, _, ⟨hfe, rfl⟩, etr, _, ⟨hetr, rfl⟩, eypr, _, ⟨heypr, rfl⟩, rfl, rfl⟩, rfl, rfl⟩
    refine ⟨rfl, ⟨kin, dh, sec hkin hdh, hdh⟩, ?_, ⟨fb, fe, btr, bypr, etr, eypr, rfl, sec hfb hbtr, hbtr, hbypr, sec hfe hetr, hetr, heypr⟩⟩
    rcases (getM_iff hy).1 hgr with h | ⟨h, rfl⟩
    · rw [optV, if_pos (hy.child h).isDef, at1_iff (f := Yaml.asVec Yaml.asD) rfl] at hg
      exact .inr ⟨gr, h, hg⟩
    · cases hg
      exact .inl ⟨h, rfl⟩
  · rintro ⟨rfl, ⟨kin, dh, hkin, hdh⟩, hg, ⟨fb, fe, btr, bypr, etr, eypr, rfl, hfb, hbtr, hbypr, hfe, hetr, heypr⟩⟩
    obtain ⟨gr, hgr, hg⟩ : ∃ gr, y.getM "gravity" = some gr ∧ optV (fun gr => (gr.getM "value").bind (Yaml.asVec Yaml.asD)) [some 0, some 0, some 0] gr = some g := by
      rcases hg with ⟨h, rfl⟩ | ⟨z, h, hg⟩
      · exact ⟨_, getM_missing h, rfl⟩
      · refine ⟨z, getM_child h, ?_⟩
        rw [optV, if_pos (hy.child h).isDef]
        exact getM_entry hg
    exact ⟨⟨dh, g, btr, bypr, etr, eypr⟩, ⟨kin, _, ⟨getM_child hkin, rfl⟩, dh, _, ⟨hdh, rfl⟩, gr, _, ⟨hgr, rfl⟩, g, _, ⟨hg, rfl⟩, fb, _, ⟨getM_child hfb, rfl⟩, btr, _, ⟨hbtr, rfl⟩,
      bypr, _, ⟨hbypr, rfl⟩, fe, _, ⟨getM_child hfe, rfl⟩, etr, _, ⟨hetr, rfl⟩, eypr, _, ⟨heypr, rfl⟩, rfl, rfl⟩, rfl, rfl⟩

/-! ## The links -/

/-- What the loop over the links reads of one link. -/
theorem linkFlags_iff {sec : String} {w : ℕ} {nd : Yaml} (hnd : Parsed nd) {xs : List ℤ} :
    (∃ s, nd.getC sec = some s ∧ ∃ fl, s.getM "symb" = some fl ∧ optV (Yaml.asVec Yaml.asI) (List.replicate w 0) fl = some xs) ↔
      LinkFlags sec w nd xs := by
  constructor
  · rintro ⟨s, hs, fl, hfl, hx⟩
    rcases (getC_iff hnd).1 hs with h | ⟨-, rfl⟩
    · exact ⟨s, h, (optM_iff (hnd.child h)).1 ⟨fl, hfl, hx⟩⟩
    · cases hfl
  · rintro ⟨s, h, hx⟩
    obtain ⟨fl, hfl, hx⟩ := (optM_iff (hnd.child h)).2 hx
    exact ⟨s, getC_child h, fl, hfl, hx⟩

theorem linkFlags_unique {sec : String} {w : ℕ} {nd : Yaml} (hnd : Parsed nd) {xs ys : List ℤ} (h : LinkFlags sec w nd xs) (h' : LinkFlags sec w nd ys) :
    xs = ys := by
  obtain ⟨s, hs, fl, hfl, hx⟩ := (linkFlags_iff hnd).2 h
  obtain ⟨s', hs', fl', hfl', hx'⟩ := (linkFlags_iff hnd).2 h'
  cases hs.symm.trans hs'
  cases hfl.symm.trans hfl'
  exact Option.some.inj (hx.symm.trans hx')

/-- The flags of the links from number `i` on lie inside. -/
def InsideFrom (sec : String) (w N i : ℕ) (l : List (Option String × Yaml)) : Prop :=
  ∀ j e, l[j]? = some e → ∃ xs, LinkFlags sec w e.2 xs ∧ (i + j) * w + xs.length ≤ N

theorem insideFrom_cons {sec : String} {w N i : ℕ} {e : Option String × Yaml} {l : List (Option String × Yaml)} :
    InsideFrom sec w N i (e :: l) ↔ (∃ xs, LinkFlags sec w e.2 xs ∧ i * w + xs.length ≤ N) ∧ InsideFrom sec w N (i + 1) l := by
  constructor
  · intro h
    refine ⟨by simpa using h 0 e rfl, fun j e' he => ?_⟩
    have := h (j + 1) e' (by simpa using he)
    rwa [show i + (j + 1) = i + 1 + j by omega] at this
  · rintro ⟨h0, h⟩ j e' he
    cases j with
    | zero => simp only [List.getElem?_cons_zero, Option.some.injEq] at he; subst he; simpa using h0
    | succ j =>
      have := h j e' (by simpa using he)
      rwa [show i + (j + 1) = i + 1 + j by omega]

theorem symbLinks_iff {sec : String} {w : ℕ} : ∀ {l : List (Option String × Yaml)} (_ : ∀ e ∈ l, Parsed e.2) {i : ℕ} {acc : List ℤ} {s s' : Part},
    (∃ acc', symbLinks sec w i acc l s = .ok acc' s') ↔ s' = s ∧ InsideFrom sec w acc.length i l
  | [], _, i, acc, s, s' => by
    simp [symbLinks, InsideFrom, eq_comm]
  | (key, nd) :: l, hl, i, acc, s, s' => by
    have hnd : Parsed nd := hl _ List.mem_cons_self
    have ih := fun (acc : List ℤ) => symbLinks_iff (sec := sec) (w := w) (l := l) (fun e he => hl e (List.mem_cons_of_mem _ he)) (i := i + 1) (acc := acc) (s := s) (s' := s')
    rw [insideFrom_cons]
    simp only [symbLinks, opt_eq, bind_ok_iff, ofYaml_ok_iff, ofIdx_ok_iff]
    constructor
    · rintro ⟨acc', z, _, ⟨hz, rfl⟩, fl, _, ⟨hfl, rfl⟩, xs, _, ⟨hxs, rfl⟩, acc'', _, ⟨hc, rfl⟩, h⟩
      have hx := (linkFlags_iff hnd).1 ⟨z, hz, fl, hfl, hxs⟩
      obtain ⟨rfl, hr⟩ := (ih acc'').1 ⟨acc', h⟩
      rw [length_copyAt hc] at hr
      refine ⟨rfl, ⟨xs, hx, ?_⟩, hr⟩
      unfold copyAt at hc
      split_ifs at hc with hc'
      exact hc'
    · rintro ⟨rfl, ⟨xs, hx, hle⟩, h⟩
      obtain ⟨z, hz, fl, hfl, hxs⟩ := (linkFlags_iff hnd).2 hx
      obtain ⟨acc'', hc⟩ : ∃ acc'', copyAt acc (i * w) xs = some acc'' := by
        unfold copyAt
        rw [if_pos hle]
        exact ⟨_, rfl⟩
      rw [← length_copyAt hc] at h
      obtain ⟨acc', h⟩ := (ih acc'').2 ⟨rfl, h⟩
      exact ⟨acc', z, _, ⟨hz, rfl⟩, fl, _, ⟨hfl, rfl⟩, xs, _, ⟨hxs, rfl⟩, acc'', _, ⟨hc, rfl⟩, h⟩

/-- The flags of a link from number `i` on are the first to end outside. -/
def OutsideFrom (sec : String) (w N i : ℕ) (l : List (Option String × Yaml)) : Prop :=
  ∃ l₁ e l₂ xs, l = l₁ ++ e :: l₂ ∧ InsideFrom sec w N i l₁ ∧ LinkFlags sec w e.2 xs ∧ N < (i + l₁.length) * w + xs.length

theorem outsideFrom_cons {sec : String} {w N i : ℕ} {e : Option String × Yaml} {l : List (Option String × Yaml)} :
    OutsideFrom sec w N i (e :: l) ↔ (∃ xs, LinkFlags sec w e.2 xs ∧ N < i * w + xs.length) ∨
      ((∃ xs, LinkFlags sec w e.2 xs ∧ i * w + xs.length ≤ N) ∧ OutsideFrom sec w N (i + 1) l) := by
  constructor
  · rintro ⟨l₁, e', l₂, xs, h, h1, h2, h3⟩
    cases l₁ with
    | nil =>
      simp only [List.nil_append, List.cons.injEq] at h
      obtain ⟨rfl, rfl⟩ := h
      exact .inl ⟨xs, h2, by simpa using h3⟩
    | cons a l₁ =>
      simp only [List.cons_append, List.cons.injEq] at h
      obtain ⟨rfl, rfl⟩ := h
      rw [insideFrom_cons] at h1
      exact .inr ⟨h1.1, l₁, e', l₂, xs, rfl, h1.2, h2, by rwa [List.length_cons, show i + (l₁.length + 1) = i + 1 + l₁.length by omega] at h3⟩
  · rintro (⟨xs, h2, h3⟩ | ⟨h0, l₁, e', l₂, xs, rfl, h1, h2, h3⟩)
    · exact ⟨[], e, l, xs, rfl, fun j e' he => by simp at he, h2, by simpa using h3⟩
    · exact ⟨e :: l₁, e', l₂, xs, rfl, insideFrom_cons.2 ⟨h0, h1⟩, h2, by rwa [List.length_cons, show i + (l₁.length + 1) = i + 1 + l₁.length by omega]⟩

theorem symbLinks_ub {sec : String} {w : ℕ} : ∀ {l : List (Option String × Yaml)} (_ : ∀ e ∈ l, Parsed e.2) {i : ℕ} {acc : List ℤ} {s : Part},
    symbLinks sec w i acc l s = .ub ↔ OutsideFrom sec w acc.length i l
  | [], _, i, acc, s => by
    simp [symbLinks, OutsideFrom]
  | (key, nd) :: l, hl, i, acc, s => by
    have hnd : Parsed nd := hl _ List.mem_cons_self
    have ih := fun (acc : List ℤ) => symbLinks_ub (sec := sec) (w := w) (l := l) (fun e he => hl e (List.mem_cons_of_mem _ he)) (i := i + 1) (acc := acc) (s := s)
    rw [outsideFrom_cons]
    simp only [symbLinks, opt_eq, bind_ub_iff, ofYaml_ok_iff, ofYaml_ub_iff, ofIdx_ok_iff, ofIdx_ub_iff, false_or]
    constructor
    · rintro ⟨z, _, ⟨hz, rfl⟩, fl, _, ⟨hfl, rfl⟩, xs, _, ⟨hxs, rfl⟩, h⟩
      have hx := (linkFlags_iff hnd).1 ⟨z, hz, fl, hfl, hxs⟩
      rcases h with h | ⟨acc'', _, ⟨hc, rfl⟩, h⟩
      · left
        refine ⟨xs, hx, ?_⟩
        unfold copyAt at h
        split_ifs at h with hc'
        omega
      · right
        have h := (ih acc'').1 h
        rw [length_copyAt hc] at h
        refine ⟨⟨xs, hx, ?_⟩, h⟩
        unfold copyAt at hc
        split_ifs at hc with hc'
        exact hc'
    · rintro (⟨xs, hx, hlt⟩ | ⟨⟨xs, hx, hle⟩, h⟩)
      · obtain ⟨z, hz, fl, hfl, hxs⟩ := (linkFlags_iff hnd).2 hx
        refine ⟨z, _, ⟨hz, rfl⟩, fl, _, ⟨hfl, rfl⟩, xs, _, ⟨hxs, rfl⟩, .inl ?_⟩
        unfold copyAt
        rw [if_neg (by omega)]
      · obtain ⟨z, hz, fl, hfl, hxs⟩ := (linkFlags_iff hnd).2 hx
        obtain ⟨acc'', hc⟩ : ∃ acc'', copyAt acc (i * w) xs = some acc'' := by
          unfold copyAt
          rw [if_pos hle]
          exact ⟨_, rfl⟩
        rw [← length_copyAt hc] at h
        exact ⟨z, _, ⟨hz, rfl⟩, fl, _, ⟨hfl, rfl⟩, xs, _, ⟨hxs, rfl⟩, .inr ⟨acc'', _, ⟨hc, rfl⟩, (ih acc'').2 h⟩⟩

/-- What a loop over a section visits: the entries of `Visits`, or invalid nodes. -/
theorem items_cases {y z : Yaml} {k : String} (hy : Parsed y) (hz : y.getM k = some z) :
    Visits y k z.items ∧ (∀ e ∈ z.items, Parsed e.2) ∨ ((∀ l, ¬ Visits y k l) ∧ ∃ l, z.items = (none, .zombie) :: l) := by
  rcases (getM_iff hy).1 hz with h | ⟨h, rfl⟩
  · have hd := hy.child h
    cases hd with
    | null => exact .inl ⟨.inr ⟨rfl, .inr ⟨_, h, .inl rfl⟩⟩, by simp [Yaml.items]⟩
    | scalar s => exact .inl ⟨.inr ⟨rfl, .inr ⟨_, h, .inr (.inl ⟨s, rfl⟩)⟩⟩, by simp [Yaml.items]⟩
    | seq hl =>
      rename_i l
      cases l with
      | nil => exact .inl ⟨.inr ⟨rfl, .inr ⟨_, h, .inr (.inr rfl)⟩⟩, by simp [Yaml.items]⟩
      | cons a l =>
        refine .inr ⟨?_, _, rfl⟩
        rintro l' (h' | ⟨-, h' | ⟨z', h', h'' | ⟨s, h''⟩ | h''⟩⟩)
        · cases child_unique h h'
        · exact missing_child h' h
        · subst h''; cases child_unique h h'
        · subst h''; cases child_unique h h'
        · subst h''; cases child_unique h h'
    | map hl => exact .inl ⟨.inl h, hl⟩
  · exact .inl ⟨.inr ⟨rfl, .inl h⟩, by simp [Yaml.items]⟩

theorem visits_unique {y : Yaml} {k : String} {l l' : List (Option String × Yaml)} (h : Visits y k l) (h' : Visits y k l') : l = l' := by
  rcases h with h | ⟨rfl, h⟩ <;> rcases h' with h' | ⟨rfl, h'⟩
  · cases child_unique h h'; rfl
  · exfalso
    rcases h' with h' | ⟨z, h', h''⟩
    · exact missing_child h' h
    · obtain rfl := child_unique h h'
      rcases h'' with h'' | ⟨s, h''⟩ | h'' <;> cases h''
  · exfalso
    rcases h with h | ⟨z, h, h''⟩
    · exact missing_child h h'
    · obtain rfl := child_unique h h'
      rcases h'' with h'' | ⟨s, h''⟩ | h'' <;> cases h''
  · rfl

theorem flagsInside_iff {sec : String} {w m : ℕ} {l : List (Option String × Yaml)} : FlagsInside sec w m l ↔ InsideFrom sec w (w * m) 0 l := by
  simp only [FlagsInside, InsideFrom, Nat.zero_add]

theorem flagsOutside_iff {sec : String} {w m : ℕ} {l : List (Option String × Yaml)} : FlagsOutside sec w m l ↔ OutsideFrom sec w (w * m) 0 l := by
  simp only [FlagsOutside, OutsideFrom, Nat.zero_add, flagsInside_iff]

/-- The loop over the section `dynamics`. -/
theorem linksLoop_ub {y dyn : Yaml} (hy : Parsed y) (hd : y.getM "dynamics" = some dyn) {sec : String} {w m : ℕ} {acc : List ℤ} (ha : acc.length = w * m)
    {s : Part} : symbLinks sec w 0 acc dyn.items s = .ub ↔ ∃ l, Visits y "dynamics" l ∧ FlagsOutside sec w m l := by
  rcases items_cases hy hd with ⟨hv, hl⟩ | ⟨hv, l, hl⟩
  · rw [symbLinks_ub hl, ha, ← flagsOutside_iff]
    exact ⟨fun h => ⟨_, hv, h⟩, fun ⟨l, hv', h⟩ => visits_unique hv hv' ▸ h⟩
  · rw [hl]
    exact ⟨fun h => (by cases h), fun ⟨l, h, _⟩ => (hv l h).elim⟩

theorem linksLoop_ok {y dyn : Yaml} (hy : Parsed y) (hd : y.getM "dynamics" = some dyn) {sec : String} {w m : ℕ} {acc : List ℤ} (ha : acc.length = w * m)
    {s s' : Part} : (∃ acc', symbLinks sec w 0 acc dyn.items s = .ok acc' s') ↔ s' = s ∧ ∃ l, Visits y "dynamics" l ∧ FlagsInside sec w m l := by
  rcases items_cases hy hd with ⟨hv, hl⟩ | ⟨hv, l, hl⟩
  · rw [symbLinks_iff hl, ha, ← flagsInside_iff]
    exact ⟨fun h => ⟨h.1, _, hv, h.2⟩, fun ⟨h0, l, hv', h⟩ => ⟨h0, visits_unique hv hv' ▸ h⟩⟩
  · rw [hl]
    exact ⟨fun ⟨_, h⟩ => (by cases h), fun ⟨_, l, h, _⟩ => (hv l h).elim⟩

/-! ## The elastic joints -/

theorem symbVector_ub {nd : Yaml} {key : String} {o : ℤ} {s : Part} : symbVector nd key o s ≠ .ub := by
  unfold symbVector
  simp only [ne_eq, bind_ub_iff, ofYaml_ok_iff, ofYaml_ub_iff, false_or, not_exists, not_and]
  intros
  split_ifs <;> simp only [bind_ub_iff, ofYaml_ok_iff, ofYaml_ub_iff, ofExc_ub_iff, false_or, not_exists, not_and, not_false_iff, implies_true, and_false]

theorem symbVector_iff {nd : Yaml} (hnd : Parsed nd) {key : String} {o : ℤ} {s s' : Part} : (∃ a, symbVector nd key o s = .ok a s') ↔
    s' = s ∧ 0 ≤ o ∧ ∃ xs, OptEntry (Yaml.asVec Yaml.asI) [] nd key xs := by
  unfold symbVector
  simp only [bind_ok_iff, ofYaml_ok_iff, ← optC_iff hnd]
  constructor
  · rintro ⟨a, v, _, ⟨hv, rfl⟩, h⟩
    by_cases hdef : v.isDef = true
    · rw [if_pos hdef] at h
      simp only [bind_ok_iff, ofYaml_ok_iff, ofExc_ok_iff] at h
      obtain ⟨xs, _, ⟨hxs, rfl⟩, h, rfl⟩ := h
      split_ifs at h with h0
      exact ⟨rfl, h0, xs, v, hv, by rw [optV, if_pos hdef, hxs]⟩
    · rw [if_neg hdef] at h
      simp only [ofExc_ok_iff] at h
      obtain ⟨h, rfl⟩ := h
      split_ifs at h with h0
      exact ⟨rfl, h0, [], v, hv, by rw [optV, if_neg hdef]⟩
  · rintro ⟨rfl, h0, xs, v, hv, hx⟩
    unfold optV at hx
    split_ifs at hx with hdef
    · exact ⟨resize o.toNat xs, v, s', ⟨hv, rfl⟩, by rw [if_pos hdef, hx]; simp only [bind_ok_iff, ofYaml_ok_iff, ofExc_ok_iff]; exact ⟨xs, _, ⟨rfl, rfl⟩, by rw [if_pos h0], rfl⟩⟩
    · exact ⟨List.replicate o.toNat 0, v, s', ⟨hv, rfl⟩, by rw [if_neg hdef, if_pos h0]; rfl⟩

theorem symbJoints_ub {ne : ℕ} {kI dI dmI : ℤ} : ∀ {l : List (Option String × Yaml)} {i : ℕ} {acc : Ela} {s : Part},
    symbJoints ne kI dI dmI i acc l s ≠ .ub
  | [], i, acc, s => by simp [symbJoints]
  | (key, nd) :: l, i, acc, s => by
    have ih := fun acc s => symbJoints_ub (ne := ne) (kI := kI) (dI := dI) (dmI := dmI) (l := l) (i := i + 1) (acc := acc) (s := s)
    rw [symbJoints]
    by_cases h : i = ne
    · rw [if_pos h]
      simp
    · rw [if_neg h]
      simp only [opt_eq, ne_eq, bind_ub_iff, ofYaml_ok_iff, ofYaml_ub_iff, symbVector_ub, false_or, not_exists, not_and]
      intros
      exact ih _ _

/-- The joints from number `i` on can be read. -/
def JointsFrom (ne : ℕ) (kI dI dmI : ℤ) (i : ℕ) (l : List (Option String × Yaml)) : Prop :=
  ∀ j, i + j < ne → ∀ e, l[j]? = some e → (0 ≤ kI ∧ 0 ≤ dI ∧ 0 ≤ dmI) ∧ JointFlags e.2

theorem symbJoints_iff {ne : ℕ} {kI dI dmI : ℤ} : ∀ {l : List (Option String × Yaml)} (_ : ∀ e ∈ l, Parsed e.2) {i : ℕ} (_ : i ≤ ne) {acc : Ela} {s s' : Part},
    (∃ a, symbJoints ne kI dI dmI i acc l s = .ok a s') ↔ s' = s ∧ JointsFrom ne kI dI dmI i l
  | [], _, i, _, acc, s, s' => by simp [symbJoints, JointsFrom, eq_comm]
  | (key, nd) :: l, hl, i, hi, acc, s, s' => by
    have hnd : Parsed nd := hl _ List.mem_cons_self
    rw [symbJoints]
    by_cases h : i = ne
    · rw [if_pos h]
      simp only [pure_ok_iff, exists_eq_left, JointsFrom]
      exact ⟨fun h' => ⟨h', fun j hj => by omega⟩, fun h' => h'.1⟩
    · rw [if_neg h]
      have ih := fun acc => symbJoints_iff (ne := ne) (kI := kI) (dI := dI) (dmI := dmI) (l := l) (fun e he => hl e (List.mem_cons_of_mem _ he)) (i := i + 1)
        (by omega) (acc := acc) (s := s) (s' := s')
      simp only [opt_eq, bind_ok_iff, ofYaml_ok_iff]
      constructor
      · rintro ⟨a, k, _, hk, d, _, hd, dm, _, hdm, m, _, ⟨hm, rfl⟩, mm, _, ⟨hmm, rfl⟩, h'⟩
        obtain ⟨rfl, k0, xk⟩ := (symbVector_iff hnd).1 ⟨k, hk⟩
        obtain ⟨rfl, d0, xd⟩ := (symbVector_iff hnd).1 ⟨d, hd⟩
        obtain ⟨rfl, dm0, xdm⟩ := (symbVector_iff hnd).1 ⟨dm, hdm⟩
        obtain ⟨hs, hr⟩ := (ih _).1 ⟨a, h'⟩
        refine ⟨hs, fun j hj e he => ?_⟩
        cases j with
        | zero =>
          cases he
          refine ⟨⟨k0, d0, dm0⟩, ?_, mm, (optC_iff hnd).1 ⟨m, hm, hmm⟩⟩
          intro k hk
          simp only [List.mem_cons, List.not_mem_nil, or_false] at hk
          rcases hk with rfl | rfl | rfl
          · exact xk
          · exact xd
          · exact xdm
        | succ j => exact hr j (by omega) e (by simpa using he)
      · rintro ⟨rfl, hr⟩
        obtain ⟨⟨k0, d0, dm0⟩, hf, mm, hmm⟩ := hr 0 (by omega) _ rfl
        obtain ⟨k, hk⟩ := (symbVector_iff hnd (s := s') (s' := s')).2 ⟨rfl, k0, hf "K_symb" (by simp)⟩
        obtain ⟨d, hd⟩ := (symbVector_iff hnd (s := s') (s' := s')).2 ⟨rfl, d0, hf "D_symb" (by simp)⟩
        obtain ⟨dm, hdm⟩ := (symbVector_iff hnd (s := s') (s' := s')).2 ⟨rfl, dm0, hf "Dm_symb" (by simp)⟩
        obtain ⟨m, hm, hmm⟩ := (optC_iff hnd).2 hmm
        obtain ⟨a, h'⟩ := (ih ⟨if 0 < kI then acc.k ++ k else acc.k, if 0 < dI then acc.d ++ d else acc.d, if 0 < dmI then acc.dm ++ dm else acc.dm,
          acc.mm ++ [mm]⟩).2 ⟨rfl, fun j hj e he => hr (j + 1) (by omega) e (by simpa using he)⟩
        exact ⟨a, k, _, hk, d, _, hd, dm, _, hdm, m, _, ⟨hm, rfl⟩, mm, _, ⟨hmm, rfl⟩, h'⟩

/-- Members after the joint types are known. -/
def typePart (s : Part) (h : Heading) : Part :=
  { headPart s h with isEla := (h.types.take h.m.toNat).map fun t => if isSEA t then 1 else 0, ne := h.ne }

theorem parseElaSymb_ub {y : Yaml} {p s : Part} : parseElaSymb y p s ≠ .ub := by
  unfold parseElaSymb
  split_ifs
  · simp only [ne_eq, bind_ub_iff, ofYaml_ok_iff, ofYaml_ub_iff, symbJoints_ub, false_or, and_false, exists_false, not_false_iff]
  · simp

theorem parseElaSymb_ok {y : Yaml} (hy : Parsed y) {h : Heading} (hh : HeadingOf y h) {p s s' : Part} (hp : p.ne = h.ne) (he : p.elastic = h.elastic)
    (hk : p.kI = h.k) (hd : p.dI = h.d) (hdm : p.dmI = h.dm) : (∃ a, parseElaSymb y p s = .ok a s') ↔ s' = s ∧ ElasticFlags y h := by
  unfold parseElaSymb ElasticFlags
  rw [he, hp, hk, hd, hdm]
  cases hel : h.elastic with
  | false => simp [eq_comm]
  | true =>
    obtain ⟨el, hc, hK, -, -⟩ := hh.orders hel
    have hdoc := hy.child hc
    obtain ⟨js, hjs⟩ : ∃ js, el.getM "joints" = some js := by
      obtain ⟨_, ⟨_, _, rfl, _⟩, _⟩ := hK
      exact ⟨_, rfl⟩
    simp only [if_true, bind_ok_iff, ofYaml_ok_iff, getM_child hc, forall_true_left]
    have start : (∃ a el', ∃ t, (some el = some el' ∧ t = s) ∧ ∃ js', ∃ t', (el'.getM "joints" = some js' ∧ t' = t) ∧
        symbJoints h.ne h.k h.d h.dm 0 ⟨[], [], [], []⟩ js'.items t' = .ok a s') ↔ ∃ a, symbJoints h.ne h.k h.d h.dm 0 ⟨[], [], [], []⟩ js.items s = .ok a s' := by
      constructor
      · rintro ⟨a, _, _, ⟨e, rfl⟩, js', _, ⟨hj, rfl⟩, h'⟩
        cases e
        cases hjs.symm.trans hj
        exact ⟨a, h'⟩
      · rintro ⟨a, h'⟩
        exact ⟨a, el, s, ⟨rfl, rfl⟩, js, s, ⟨hjs, rfl⟩, h'⟩
    rw [start]
    by_cases h0 : h.ne = 0
    · rw [h0]
      have : ∀ l, symbJoints 0 h.k h.d h.dm 0 ⟨[], [], [], []⟩ l s = .ok ⟨[], [], [], []⟩ s := by
        intro l
        cases l with
        | nil => rfl
        | cons e l => rw [symbJoints, if_pos rfl]; rfl
      rw [this]
      simp [eq_comm]
    · rcases items_cases hdoc hjs with ⟨hv, hl⟩ | ⟨hv, l, hl⟩
      · rw [symbJoints_iff hl (by omega)]
        constructor
        · rintro ⟨rfl, hj⟩
          refine ⟨rfl, fun _ => ⟨el, _, hc, hv, fun hne => ?_, fun i hi e he => (hj i (by omega) e he).2⟩⟩
          obtain ⟨e, l', hl'⟩ := List.exists_cons_of_ne_nil hne
          exact (hj 0 (by omega) e (by rw [hl']; rfl)).1
        · rintro ⟨rfl, hj⟩
          obtain ⟨el', l, hc', hv', h1, h2⟩ := hj (by omega)
          obtain rfl := child_unique hc hc'
          obtain rfl := visits_unique hv hv'
          refine ⟨rfl, fun j hj e he => ⟨h1 (fun h => by rw [h] at he; simp at he), h2 j (by omega) e he⟩⟩
      · rw [hl, symbJoints, if_neg (Ne.symm h0)]
        constructor
        · rintro ⟨a, h'⟩
          cases h'
        · rintro ⟨-, hj⟩
          obtain ⟨el', l, hc', hv', -⟩ := hj (by omega)
          obtain rfl := child_unique hc hc'
          exact (hv l hv').elim

/-! ## The dynamic parameters -/

theorem parseDlSymb_ub {y dyn : Yaml} (hy : Parsed y) (hd : y.getM "dynamics" = some dyn) {m dl : ℤ} (hm : 0 ≤ m) {s : Part} :
    parseDlSymb dyn m dl s = .ub ↔ 0 < dl ∧ ∃ l, Visits y "dynamics" l ∧ FlagsOutside "friction" dl.toNat m.toNat l := by
  unfold parseDlSymb
  by_cases h : 0 < dl
  · rw [if_pos h, linksLoop_ub hy hd (m := m.toNat) (by rw [List.length_replicate, Int.toNat_mul (by omega) hm])]
    simp [h]
  · rw [if_neg h]
    simp [h]

theorem parseDlSymb_ok {y dyn : Yaml} (hy : Parsed y) (hd : y.getM "dynamics" = some dyn) {m dl : ℤ} (hm : 0 ≤ m) {s s' : Part}
    {l : List (Option String × Yaml)} (hl : Visits y "dynamics" l) :
    (∃ a, parseDlSymb dyn m dl s = .ok a s') ↔ s' = s ∧ (0 < dl → FlagsInside "friction" dl.toNat m.toNat l) := by
  unfold parseDlSymb
  by_cases h : 0 < dl
  · rw [if_pos h, linksLoop_ok hy hd (m := m.toNat) (by rw [List.length_replicate, Int.toNat_mul (by omega) hm])]
    simp only [h, forall_true_left]
    exact ⟨fun ⟨h0, l', hv, h'⟩ => ⟨h0, visits_unique hv hl ▸ h'⟩, fun ⟨h0, h'⟩ => ⟨h0, l, hl, h'⟩⟩
  · rw [if_neg h]
    simp [h, eq_comm]

/-- State of the object while the flags are read. -/
structure Typed (h : Heading) (s : Part) : Prop where
  nj : s.nj = some h.m
  types : s.types = h.types
  dl : s.dlI = h.dl
  elastic : s.elastic = h.elastic
  ne : s.ne = h.ne
  k : s.kI = h.k
  d : s.dI = h.d
  dm : s.dmI = h.dm

theorem parseDynSymb_ub {y : Yaml} (hy : Parsed y) {h : Heading} (hm : 0 ≤ h.m) {s : Part} (hs : Typed h s) :
    parseDynSymb y h.m s = .ub ↔ ∃ l, Visits y "dynamics" l ∧ (FlagsOutside "inertial" 10 h.m.toNat l ∨
      (FlagsInside "inertial" 10 h.m.toNat l ∧ 0 < h.dl ∧ FlagsOutside "friction" h.dl.toNat h.m.toNat l)) := by
  unfold parseDynSymb
  simp only [bind_ub_iff, ofYaml_ok_iff, ofYaml_ub_iff, read_ok_iff, read_ub_iff, pure_ub_iff, parseElaSymb_ub, false_or, and_false, exists_false, or_false]
  have ha : (List.replicate (10 * h.m.toNat) (0 : ℤ)).length = 10 * h.m.toNat := by simp
  constructor
  · rintro ⟨dyn, _, ⟨hd, rfl⟩, h1 | ⟨acc, _, h1, _, _, ⟨rfl, rfl⟩, h2⟩⟩
    · obtain ⟨l, hv, hl⟩ := (linksLoop_ub hy hd ha).1 h1
      exact ⟨l, hv, .inl hl⟩
    · obtain ⟨rfl, l, hv, hl⟩ := (linksLoop_ok hy hd ha).1 ⟨acc, h1⟩
      rw [parseDlSymb_ub hy hd hm, hs.dl] at h2
      obtain ⟨h0, l', hv', hl'⟩ := h2
      obtain rfl := visits_unique hv hv'
      exact ⟨l, hv, .inr ⟨hl, h0, hl'⟩⟩
  · rintro ⟨l, hv, hl⟩
    obtain ⟨dyn, hd⟩ : ∃ dyn, y.getM "dynamics" = some dyn := by
      rcases hv with hv | ⟨-, hv | ⟨z, hv, -⟩⟩
      · exact ⟨_, getM_child hv⟩
      · exact ⟨_, getM_missing hv⟩
      · exact ⟨_, getM_child hv⟩
    refine ⟨dyn, s, ⟨hd, rfl⟩, ?_⟩
    rcases hl with hl | ⟨hl, h0, hl'⟩
    · exact .inl ((linksLoop_ub hy hd ha).2 ⟨l, hv, hl⟩)
    · obtain ⟨acc, h1⟩ := (linksLoop_ok hy hd ha (s := s) (s' := s)).2 ⟨rfl, l, hv, hl⟩
      refine .inr ⟨acc, s, h1, s, s, ⟨rfl, rfl⟩, ?_⟩
      rw [parseDlSymb_ub hy hd hm, hs.dl]
      exact ⟨h0, l, hv, hl'⟩

theorem parseDynSymb_iff {y : Yaml} (hy : Parsed y) {h : Heading} (hh : HeadingOf y h) (hm : 0 ≤ h.m) {s s' : Part} (hs : Typed h s) :
    (∃ a, parseDynSymb y h.m s = .ok a s') ↔ s' = s ∧ ∃ l, Visits y "dynamics" l ∧ FlagsInside "inertial" 10 h.m.toNat l ∧
      (0 < h.dl → FlagsInside "friction" h.dl.toNat h.m.toNat l) ∧ ElasticFlags y h := by
  unfold parseDynSymb
  simp only [bind_ok_iff, ofYaml_ok_iff, read_ok_iff, pure_ok_iff]
  have ha : (List.replicate (10 * h.m.toNat) (0 : ℤ)).length = 10 * h.m.toNat := by simp
  constructor
  · rintro ⟨_, dyn, _, ⟨hd, rfl⟩, acc, _, h1, _, _, ⟨rfl, rfl⟩, fl, _, h2, el, _, h3, -, rfl⟩
    obtain ⟨rfl, l, hv, hl⟩ := (linksLoop_ok hy hd ha).1 ⟨acc, h1⟩
    obtain ⟨rfl, hl'⟩ := (parseDlSymb_ok hy hd hm hv).1 ⟨fl, h2⟩
    rw [hs.dl] at hl'
    obtain ⟨rfl, he⟩ := (parseElaSymb_ok hy hh hs.ne hs.elastic hs.k hs.d hs.dm).1 ⟨el, h3⟩
    exact ⟨rfl, l, hv, hl, hl', he⟩
  · rintro ⟨rfl, l, hv, hl, hl', he⟩
    obtain ⟨dyn, hd⟩ : ∃ dyn, y.getM "dynamics" = some dyn := by
      rcases hv with hv | ⟨-, hv | ⟨z, hv, -⟩⟩
      · exact ⟨_, getM_child hv⟩
      · exact ⟨_, getM_missing hv⟩
      · exact ⟨_, getM_child hv⟩
    obtain ⟨acc, h1⟩ := (linksLoop_ok hy hd ha (s := s') (s' := s')).2 ⟨rfl, l, hv, hl⟩
    obtain ⟨fl, h2⟩ := (parseDlSymb_ok hy hd hm hv (dl := s'.dlI) (s := s') (s' := s')).2 ⟨rfl, by rw [hs.dl]; exact hl'⟩
    obtain ⟨el, h3⟩ := (parseElaSymb_ok hy hh hs.ne hs.elastic hs.k hs.d hs.dm (s := s') (s' := s')).2 ⟨rfl, he⟩
    exact ⟨_, dyn, s', ⟨hd, rfl⟩, acc, s', h1, s', s', ⟨rfl, rfl⟩, fl, s', h2, el, s', h3, rfl, rfl⟩

/-! ## The kinematic parameters -/

theorem symbOpt_ub {nd : Yaml} {par : String} {n : ℕ} {s : Part} : symbOpt nd par n s ≠ .ub := by
  unfold symbOpt
  simp only [ne_eq, bind_ub_iff, ofYaml_ok_iff, ofYaml_ub_iff, false_or, not_exists, not_and]
  intros
  split_ifs <;> simp only [putSymb, bind_ub_iff, ofYaml_ok_iff, ofYaml_ub_iff, modify_ub_iff, false_or, and_false, exists_false, not_false_iff]

theorem symbOpt_iff {nd : Yaml} (hnd : Parsed nd) {par : String} {n : ℕ} {s : Part} :
    (∃ s', symbOpt nd par n s = .ok () s') ↔ ∃ xs, OptEntry (Yaml.asVec Yaml.asI) [] nd "symb" xs := by
  unfold symbOpt
  simp only [bind_ok_iff, ofYaml_ok_iff, ← optM_iff hnd]
  constructor
  · rintro ⟨s', z, _, ⟨hz, rfl⟩, h⟩
    by_cases hdef : z.isDef = true
    · rw [if_pos hdef] at h
      simp only [bind_ok_iff, ofYaml_ok_iff] at h
      obtain ⟨xs, _, ⟨hx, rfl⟩, -⟩ := h
      exact ⟨xs, z, hz, by rw [optV, if_pos hdef, hx]⟩
    · exact ⟨[], z, hz, by rw [optV, if_neg hdef]⟩
  · rintro ⟨xs, z, hz, hx⟩
    unfold optV at hx
    split_ifs at hx with hdef
    · refine ⟨{ s with symb := s.symb.put par xs }, z, s, ⟨hz, rfl⟩, ?_⟩
      rw [if_pos hdef]
      simp only [bind_ok_iff, ofYaml_ok_iff, putSymb, modify_ok_iff]
      exact ⟨xs, s, ⟨hx, rfl⟩, rfl⟩
    · refine ⟨{ s with symb := s.symb.put par (List.replicate n 0) }, z, s, ⟨hz, rfl⟩, ?_⟩
      rw [if_neg hdef]
      rfl

/-- What `putSymb` and `symbOpt` do not touch. -/
def SameJoints (s s' : Part) : Prop := s'.nj = s.nj ∧ s'.types = s.types

theorem symbOpt_keeps {nd : Yaml} {par : String} {n : ℕ} {s s' : Part} {a : Unit} (h : symbOpt nd par n s = .ok a s') : SameJoints s s' := by
  unfold symbOpt at h
  simp only [bind_ok_iff, ofYaml_ok_iff] at h
  obtain ⟨z, _, ⟨hz, rfl⟩, h⟩ := h
  split_ifs at h
  · simp only [bind_ok_iff, ofYaml_ok_iff, putSymb, modify_ok_iff] at h
    obtain ⟨xs, _, ⟨-, rfl⟩, rfl⟩ := h
    exact ⟨rfl, rfl⟩
  · simp only [putSymb, modify_ok_iff] at h
    subst h
    exact ⟨rfl, rfl⟩

theorem parseKinSymb_ub {y : Yaml} {n : ℕ} {s : Part} : parseKinSymb y n s ≠ .ub := by
  unfold parseKinSymb
  simp only [ne_eq, bind_ub_iff, ofYaml_ok_iff, ofYaml_ub_iff, symbOpt_ub, false_or, and_false, exists_false, not_false_iff]

/-- The flags of one section. -/
def SecFlags (y : Yaml) (k : String) : Prop := ∀ z, Child y k z → ∃ xs, OptEntry (Yaml.asVec Yaml.asI) [] z "symb" xs

theorem secFlags_iff {y z : Yaml} {k par : String} {n : ℕ} (hy : Parsed y) (hz : y.getM k = some z) {s : Part} :
    (∃ s', symbOpt z par n s = .ok () s') ↔ SecFlags y k := by
  rcases (getM_iff hy).1 hz with h | ⟨h, rfl⟩
  · rw [symbOpt_iff (hy.child h)]
    exact ⟨fun h' z' hz' => child_unique h hz' ▸ h', fun h' => h' z h⟩
  · exact ⟨fun _ z' hz' => (missing_child h hz').elim, fun _ => ⟨_, rfl⟩⟩

theorem parseKinSymb_iff {y : Yaml} (hy : Parsed y) (hmap : ∃ l, y = .map l) {n : ℕ} {s : Part} :
    (∃ s', parseKinSymb y n s = .ok () s') ↔ KinematicFlags y := by
  have get : ∀ k, ∃ z, y.getM k = some z := by
    obtain ⟨l, rfl⟩ := hmap
    exact fun k => ⟨_, rfl⟩
  obtain ⟨z₁, h₁⟩ := get "kinematics"
  obtain ⟨z₂, h₂⟩ := get "Base_to_L0"
  obtain ⟨z₃, h₃⟩ := get "Ln_to_EE"
  obtain ⟨z₄, h₄⟩ := get "gravity"
  unfold parseKinSymb
  simp only [bind_ok_iff, ofYaml_ok_iff]
  constructor
  · rintro ⟨s', _, _, ⟨e₁, rfl⟩, _, t₁, k₁, _, _, ⟨e₂, rfl⟩, _, t₂, k₂, _, _, ⟨e₃, rfl⟩, _, t₃, k₃, _, _, ⟨e₄, rfl⟩, k₄⟩
    intro k hk
    simp only [List.mem_cons, List.not_mem_nil, or_false] at hk
    rcases hk with rfl | rfl | rfl | rfl
    · exact (secFlags_iff hy e₁).1 ⟨_, k₁⟩
    · exact (secFlags_iff hy e₂).1 ⟨_, k₂⟩
    · exact (secFlags_iff hy e₃).1 ⟨_, k₃⟩
    · exact (secFlags_iff hy e₄).1 ⟨_, k₄⟩
  · intro h
    obtain ⟨t₁, k₁⟩ := (secFlags_iff (par := "par_DHtable") (n := n) (s := s) hy h₁).2 (h _ (by simp))
    obtain ⟨t₂, k₂⟩ := (secFlags_iff (par := "par_world2L0") (n := 6) (s := t₁) hy h₂).2 (h _ (by simp))
    obtain ⟨t₃, k₃⟩ := (secFlags_iff (par := "par_Ln2EE") (n := 6) (s := t₂) hy h₃).2 (h _ (by simp))
    obtain ⟨t₄, k₄⟩ := (secFlags_iff (par := "par_gravity") (n := 3) (s := t₃) hy h₄).2 (h _ (by simp))
    exact ⟨t₄, z₁, s, ⟨h₁, rfl⟩, (), t₁, k₁, z₂, t₁, ⟨h₂, rfl⟩, (), t₂, k₂, z₃, t₂, ⟨h₃, rfl⟩, (), t₃, k₃, z₄, t₃, ⟨h₄, rfl⟩, k₄⟩

theorem SameJoints.trans {s t u : Part} (h : SameJoints s t) (h' : SameJoints t u) : SameJoints s u := ⟨h'.1.trans h.1, h'.2.trans h.2⟩

theorem parseKinSymb_keeps {y : Yaml} {n : ℕ} {s s' : Part} (h : parseKinSymb y n s = .ok () s') : SameJoints s s' := by
  unfold parseKinSymb at h
  simp only [bind_ok_iff, ofYaml_ok_iff] at h
  obtain ⟨_, _, ⟨e₁, rfl⟩, _, t₁, k₁, _, _, ⟨e₂, rfl⟩, _, t₂, k₂, _, _, ⟨e₃, rfl⟩, _, t₃, k₃, _, _, ⟨e₄, rfl⟩, k₄⟩ := h
  exact (((symbOpt_keeps k₁).trans (symbOpt_keeps k₂)).trans (symbOpt_keeps k₃)).trans (symbOpt_keeps k₄)

theorem first3_none {l : List Num} : first3 l = none ↔ l.length < 3 := by
  unfold first3
  split_ifs with h
  · simp; omega
  · simp; omega

theorem parseFinal_ub {v : Nums} {s : Part} : parseFinal v s = .ub ↔ s.nj = some (s.types.length : ℤ) ∧
    ∃ x ∈ v.g :: [v.btr, v.bypr, v.etr, v.eypr], x.length < 3 := by
  unfold parseFinal
  simp only [bind_ub_iff, ofExc_ok_iff, ofExc_ub_iff, ofIdx_ok_iff, ofIdx_ub_iff, read_ok_iff, read_ub_iff, modify_ok_iff, modify_ub_iff, false_or, and_false,
    exists_false, or_false, first3_none]
  constructor
  · rintro ⟨_, _, ⟨rfl, rfl⟩, _, _, ⟨h, rfl⟩, _, _, rfl, h'⟩
    split_ifs at h with h0
    refine ⟨h0, ?_⟩
    rcases h' with h' | ⟨_, _, ⟨-, rfl⟩, h' | ⟨_, _, ⟨-, rfl⟩, h' | ⟨_, _, ⟨-, rfl⟩, h' | ⟨_, _, ⟨-, rfl⟩, h'⟩⟩⟩⟩
    · exact ⟨_, by simp, h'⟩
    · exact ⟨_, by simp, h'⟩
    · exact ⟨_, by simp, h'⟩
    · exact ⟨_, by simp, h'⟩
    · exact ⟨_, List.mem_cons_self, h'⟩
  · rintro ⟨h0, x, hx, h⟩
    refine ⟨s, s, ⟨rfl, rfl⟩, (), s, ⟨by rw [if_pos h0], rfl⟩, (), _, rfl, ?_⟩
    have ex : ∀ l : List Num, l.length < 3 ∨ ∃ a, first3 l = some a := by
      intro l
      cases e : first3 l with
      | none => exact .inl (first3_none.1 e)
      | some a => exact .inr ⟨a, rfl⟩
    rcases ex v.btr with h1 | ⟨a1, h1⟩
    · exact .inl h1
    refine .inr ⟨a1, _, ⟨h1, rfl⟩, ?_⟩
    rcases ex v.bypr with h2 | ⟨a2, h2⟩
    · exact .inl h2
    refine .inr ⟨a2, _, ⟨h2, rfl⟩, ?_⟩
    rcases ex v.etr with h3 | ⟨a3, h3⟩
    · exact .inl h3
    refine .inr ⟨a3, _, ⟨h3, rfl⟩, ?_⟩
    rcases ex v.eypr with h4 | ⟨a4, h4⟩
    · exact .inl h4
    refine .inr ⟨a4, _, ⟨h4, rfl⟩, ?_⟩
    simp only [List.mem_cons, List.not_mem_nil, or_false] at hx
    have no : ∀ {l a}, first3 l = some a → ¬ l.length < 3 := fun h1 h2 => by rw [first3_none.2 h2] at h1; cases h1
    rcases hx with rfl | rfl | rfl | rfl | rfl
    · exact h
    · exact (no h1 h).elim
    · exact (no h2 h).elim
    · exact (no h3 h).elim
    · exact (no h4 h).elim

/-! ## The number of joints stays known -/

/-- After `x` the number of joints is known if it was before. -/
def Keep {α : Type} (x : Act Part α) : Prop := Tri True Known Known x fun _ s => Known s

section keep
variable {β : Type}
theorem keep_bind {x : Act Part α} {f : α → Act Part β} (hx : Keep x) (hf : ∀ a, Keep (f a)) : Keep (x >>= f) := Tri.bind hx hf
theorem keep_yaml {o : Option α} : Keep (Act.ofYaml o) := Tri.ofYaml (fun _ h _ _ => h) fun _ h => h
theorem keep_exc {o : Option α} : Keep (Act.ofExc o) := Tri.ofExc fun _ h _ _ => h
theorem keep_idx {o : Option α} : Keep (Act.ofIdx o) := Tri.ofIdx (fun _ h _ _ => h) fun _ _ _ => trivial
theorem keep_pure {a : α} : Keep (Pure.pure a) := Tri.pure fun _ h => h
theorem keep_read : Keep Act.read := fun _ h => h
theorem keep_modify {f : Part → Part} (h : ∀ s, Known s → Known (f s)) : Keep (Act.modify f) := Tri.modify h
theorem keep_ite {c : Prop} [Decidable c] {x y : Act Part α} (hx : Keep x) (hy : Keep y) : Keep (if c then x else y) :=
  Tri.ite (fun _ => hx) fun _ => hy
theorem keep_at1 {f : Yaml → Option α} {y : Yaml} {k : String} : Keep (at1 f y k) := keep_yaml
theorem keep_opt {f : Yaml → Option α} {d : α} {y : Yaml} : Keep (opt f d y) := keep_ite keep_yaml keep_pure
theorem keep_put {k : String} {v : List ℤ} : Keep (putSymb k v) := keep_modify fun _ h => h
end keep

/-- Go through a block of statements that keep the number of joints. -/
macro "keep_tac" : tactic => `(tactic| repeat' first
  | with_reducible exact keep_yaml | with_reducible exact keep_exc | with_reducible exact keep_idx | with_reducible exact keep_pure | with_reducible exact keep_read
  | with_reducible exact keep_at1 | with_reducible exact keep_opt | with_reducible exact keep_put | ((with_reducible refine keep_modify ?_); exact fun _ h => h)
  | with_reducible refine keep_ite ?_ ?_ | (with_reducible refine keep_bind ?_ fun _ => ?_))

theorem keep_classify {nj : ℤ} : Keep (classify nj) := by
  unfold classify
  keep_tac

theorem keep_nums {y : Yaml} : Keep (parseNums y) := by
  unfold parseNums
  keep_tac

theorem keep_links {sec : String} {w : ℕ} : ∀ {l : List (Option String × Yaml)} {i : ℕ} {acc : List ℤ}, Keep (symbLinks sec w i acc l)
  | [], i, acc => keep_pure
  | (key, nd) :: l, i, acc => by
    rw [symbLinks]
    keep_tac
    exact keep_links

theorem keep_vector {nd : Yaml} {key : String} {o : ℤ} : Keep (symbVector nd key o) := by
  unfold symbVector
  keep_tac

theorem keep_joints {ne : ℕ} {kI dI dmI : ℤ} : ∀ {l : List (Option String × Yaml)} {i : ℕ} {acc : Ela}, Keep (symbJoints ne kI dI dmI i acc l)
  | [], i, acc => keep_pure
  | (key, nd) :: l, i, acc => by
    rw [symbJoints]
    refine keep_ite keep_pure ?_
    refine keep_bind keep_vector fun _ => keep_bind keep_vector fun _ => keep_bind keep_vector fun _ => keep_bind keep_yaml fun _ => keep_bind keep_opt fun _ => ?_
    exact keep_joints

theorem keep_dyn {y : Yaml} {nj : ℤ} : Keep (parseDynSymb y nj) := by
  unfold parseDynSymb parseDlSymb parseElaSymb
  keep_tac
  · exact keep_links
  · exact keep_links
  · exact keep_joints

theorem keep_kin {y : Yaml} {n : ℕ} : Keep (parseKinSymb y n) := by
  unfold parseKinSymb symbOpt
  keep_tac

theorem keep_final {v : Nums} : Keep (parseFinal v) := by
  unfold parseFinal
  keep_tac

theorem known_basic {y : Yaml} {m : ℤ} (h : Entry Yaml.asI y "num_joints" m) : Tri True Known (fun _ => True) (parseBasic y) fun _ s => Known s := by
  unfold parseBasic
  refine Tri.bind (Q := fun _ _ => True) ?_ fun nj => ?_
  · intro s _
    unfold at1
    rw [getM_entry h]
    trivial
  refine Tri.bind (Q := fun _ s => Known s) (Tri.modify fun s _ => rfl) fun _ => ?_
  have : ∀ {α : Type} {x : Act Part α}, Keep x → Tri True Known Known x fun _ s => Known s := fun h => h
  refine this ?_
  keep_tac

theorem known_parse {y : Yaml} {m : ℤ} (h : Entry Yaml.asI y "num_joints" m) : Tri True Known (fun _ => True) (parse y) fun _ s => Known s := by
  unfold parse
  refine Tri.bind (known_basic h) fun nj => ?_
  refine Tri.bind keep_classify fun _ => Tri.bind keep_nums fun v => Tri.bind keep_dyn fun p => ?_
  obtain ⟨a, b, c⟩ := p
  exact Tri.bind keep_put fun _ => Tri.bind keep_put fun _ => Tri.bind keep_put fun _ => Tri.bind keep_put fun _ => Tri.bind keep_put fun _ =>
    Tri.bind keep_put fun _ => Tri.bind keep_kin fun _ => keep_final

/-! ## All together -/

theorem map_of_entry {f : Yaml → Option α} {y : Yaml} {k : String} {a : α} (h : Entry f y k a) : ∃ l, y = .map l := by
  obtain ⟨_, ⟨_, _, rfl, _⟩, _⟩ := h
  exact ⟨_, rfl⟩

/-- The part of `parse` after the flags of the dynamic parameters. -/
def parseTail (y : Yaml) (v : Nums) (fDYN fDl : List ℤ) (ela : Ela) : Act Part Unit := do
  putSymb "par_DYN" fDYN
  putSymb "par_Dl" fDl
  putSymb "par_K" ela.k
  putSymb "par_D" ela.d
  putSymb "par_Dm" ela.dm
  putSymb "par_Mm" ela.mm
  parseKinSymb y v.dh.length
  parseFinal v

theorem parseTail_ub {y : Yaml} (hy : Parsed y) (hmap : ∃ l, y = .map l) {v : Nums} {a b : List ℤ} {c : Ela} {s : Part} :
    parseTail y v a b c s = .ub ↔ KinematicFlags y ∧ s.nj = some (s.types.length : ℤ) ∧ ∃ x ∈ v.g :: [v.btr, v.bypr, v.etr, v.eypr], x.length < 3 := by
  have aux : ∀ n s₁, SameJoints s s₁ → ((∃ a t, parseKinSymb y n s₁ = .ok a t ∧ parseFinal v t = .ub) ↔
      KinematicFlags y ∧ s.nj = some (s.types.length : ℤ) ∧ ∃ x ∈ v.g :: [v.btr, v.bypr, v.etr, v.eypr], x.length < 3) := by
    intro n s₁ hs
    constructor
    · rintro ⟨_, t, h, h'⟩
      obtain ⟨hn, ht⟩ := hs.trans (parseKinSymb_keeps h)
      rw [parseFinal_ub, hn, ht] at h'
      exact ⟨(parseKinSymb_iff hy hmap).1 ⟨t, h⟩, h'⟩
    · rintro ⟨h, h'⟩
      obtain ⟨t, hk⟩ := (parseKinSymb_iff hy hmap (n := n) (s := s₁)).2 h
      refine ⟨(), t, hk, ?_⟩
      obtain ⟨hn, ht⟩ := hs.trans (parseKinSymb_keeps hk)
      rw [parseFinal_ub, hn, ht]
      exact h'
  unfold parseTail
  simp only [putSymb, bind_ub_iff, modify_ok_iff, modify_ub_iff, false_or, parseKinSymb_ub]
  constructor
  · rintro ⟨_, _, rfl, _, _, rfl, _, _, rfl, _, _, rfl, _, _, rfl, _, _, rfl, h⟩
    refine (aux _ _ ?_).1 h
    exact ⟨rfl, rfl⟩
  · intro h
    refine ⟨(), _, rfl, (), _, rfl, (), _, rfl, (), _, rfl, (), _, rfl, (), _, rfl, ?_⟩
    refine (aux _ _ ?_).2 h
    exact ⟨rfl, rfl⟩

theorem parse_ub {y : Yaml} (hy : Parsed y) {s : Part} : parse y s = .ub ↔
    ∃ h, HeadingOf y h ∧ 0 ≤ h.m ∧ (h.types.length < h.m ∨
      ∃ g off l, h.m ≤ h.types.length ∧ VectorsOf y g off ∧ Visits y "dynamics" l ∧ (FlagsOutside "inertial" 10 h.m.toNat l ∨
        (FlagsInside "inertial" 10 h.m.toNat l ∧ ((0 < h.dl ∧ FlagsOutside "friction" h.dl.toNat h.m.toNat l) ∨
          ((0 < h.dl → FlagsInside "friction" h.dl.toNat h.m.toNat l) ∧ ElasticFlags y h ∧ KinematicFlags y ∧ h.m = h.types.length ∧
            ∃ v ∈ g :: off, v.length < 3))))) := by
  have e : parse y s = (do
    let nj ← parseBasic y
    classify nj
    let v ← parseNums y
    let p ← parseDynSymb y nj
    parseTail y v p.1 p.2.1 p.2.2 : Act Part Unit) s := rfl
  rw [e]
  simp only [bind_ub_iff, parseBasic_ub, parseNums_ub, false_or, classify_ub]
  have typed : ∀ h : Heading, Typed h { headPart s h with
      isEla := (h.types.take h.m.toNat).map fun t => if isSEA t then 1 else 0, ne := (h.types.take h.m.toNat).countP isSEA } :=
    fun h => ⟨rfl, rfl, rfl, rfl, rfl, rfl, rfl, rfl⟩
  constructor
  · rintro ⟨m, s₁, h₁, h₂⟩
    obtain ⟨h, hh, rfl, rfl⟩ := (parseBasic_iff hy).1 h₁
    rcases h₂ with ⟨h0, hlt⟩ | ⟨_, s₂, h₂, v, s₃, h₃, h₄⟩
    · exact ⟨h, hh, h0, .inl hlt⟩
    obtain ⟨h0, hle, rfl⟩ := classify_iff.1 h₂
    obtain ⟨rfl, hv⟩ := (parseNums_iff hy (g := v.g) (off := [v.btr, v.bypr, v.etr, v.eypr])).1 ⟨v, h₃, rfl, rfl⟩
    refine ⟨h, hh, h0, .inr ?_⟩
    rcases h₄ with h₄ | ⟨p, s₄, h₄, h₅⟩
    · obtain ⟨l, hl, h'⟩ := (parseDynSymb_ub hy h0 (typed h)).1 h₄
      refine ⟨v.g, _, l, hle, hv, hl, h'.imp_right fun h' => ⟨h'.1, .inl h'.2⟩⟩
    · obtain ⟨rfl, l, hl, h1, h2, h3⟩ := (parseDynSymb_iff hy hh h0 (typed h)).1 ⟨p, h₄⟩
      obtain ⟨h4, h5, h6⟩ := (parseTail_ub hy (map_of_entry hh.joints)).1 h₅
      exact ⟨v.g, _, l, hle, hv, hl, .inr ⟨h1, .inr ⟨h2, h3, h4, Option.some.inj h5, h6⟩⟩⟩
  · rintro ⟨h, hh, h0, hr⟩
    refine ⟨h.m, headPart s h, (parseBasic_iff hy).2 ⟨h, hh, rfl, rfl⟩, ?_⟩
    rcases hr with hlt | ⟨g, off, l, hle, hv, hl, hr⟩
    · exact .inl ⟨h0, hlt⟩
    refine .inr ⟨(), _, classify_iff.2 ⟨h0, hle, rfl⟩, ?_⟩
    obtain ⟨v, h₃, rfl, rfl⟩ := (parseNums_iff hy).2 ⟨rfl, hv⟩
    refine ⟨v, _, h₃, ?_⟩
    rcases hr with hr | ⟨h1, hr | ⟨h2, h3, h4, h5, h6⟩⟩
    · exact .inl ((parseDynSymb_ub hy h0 (typed h)).2 ⟨l, hl, .inl hr⟩)
    · exact .inl ((parseDynSymb_ub hy h0 (typed h)).2 ⟨l, hl, .inr ⟨h1, hr⟩⟩)
    · obtain ⟨p, h₄⟩ := (parseDynSymb_iff hy hh h0 (typed h)).2 ⟨rfl, l, hl, h1, h2, h3⟩
      exact .inr ⟨p, _, h₄, (parseTail_ub hy (map_of_entry hh.joints)).2 ⟨h4, congrArg some h5, h6⟩⟩

/-- The first conversion fails: nothing is stored. -/
theorem parse_unknown {y : Yaml} (h : ¬ ∃ m, Entry Yaml.asI y "num_joints" m) (s : Part) : parse y s = .yaml s := by
  have : (y.getM "num_joints").bind Yaml.asI = none := by
    cases e : (y.getM "num_joints").bind Yaml.asI with
    | none => rfl
    | some m => exact (h ⟨m, entry_of_getM rfl e⟩).elim
  unfold parse parseBasic at1
  rw [this]
  rfl

theorem construct_ub {y : Yaml} (hy : Parsed y) : construct y = .ub ↔ BadConfig y := by
  unfold BadConfig
  by_cases h : ∃ m, Entry Yaml.asI y "num_joints" m
  · simp only [h, not_true_eq_false, false_or]
    rw [← parse_ub hy (s := Part.new)]
    obtain ⟨m, h⟩ := h
    have hk := known_parse h Part.new trivial
    have init : ∀ p : Part, Known p → initVars p ≠ .ub := by
      intro p hp h
      unfold initVars at h
      unfold Known at hp
      split at h
      · rename_i hn; rw [hn] at hp; cases hp
      · split_ifs at h
    unfold construct
    cases e : parse y Part.new with
    | ok a s => rw [e] at hk; simp [init s hk]
    | yaml s => rw [e] at hk; simp [init s hk]
    | exc s => simp
    | ub => simp
  · simp only [h, not_false_eq_true, true_or, iff_true]
    unfold construct
    rw [parse_unknown h]
    rfl

end Robot

end Thunder
