import Verif.Props.Urdf
import Verif.Props.WrapperExact

/-!
# C68: the exact condition for defined behaviour
-/

open scoped Classical

namespace Thunder.Spec

/-- The program genYAML can read an entry of inertial.yaml: name, mass, tensor and, as far as they are there, the texts of the place and of the angles. -/
def BodyReadable (e : Option String × Yaml) : Prop :=
  e.1 ≠ none ∧ (∃ m, (e.2.getC "mass").bind Yaml.asD = some m) ∧
    (∃ z, e.2.getC "inertia" = some z ∧ ∀ k ∈ ["xx", "xy", "xz", "yy", "yz", "zz"], ∃ x, (z.getM k).bind Yaml.asD = some x) ∧
    ∃ o x, e.2.getC "origin" = some o ∧ o.getM "xyz" = some x ∧
      (x.isDef = true → x.asS ≠ none ∧ ∃ a, o.getM "rpy" = some a ∧ (a.isDef = true → a.asS ≠ none))

/-- An entry with a place and angles. -/
def BodyPlaced (e : Option String × Yaml) : Prop :=
  ∃ o x a, e.2.getC "origin" = some o ∧ o.getM "xyz" = some x ∧ x.isDef = true ∧ o.getM "rpy" = some a ∧ a.isDef = true

end Thunder.Spec

namespace Thunder.Urdf

open Act Spec

/-- One iteration. -/
theorem readEntry_exact (scan : String → List Num) (e : Option String × Yaml) (s : St) : match readEntry scan e s with
    | .ok _ s' => BodyReadable e ∧ s'.files = s.files ∧ s'.links.length = s.links.length + if BodyPlaced e then 1 else 0
    | .yaml s' => ¬ BodyReadable e ∧ s' = s
    | .exc _ => False
    | .ub => False := by
  unfold readEntry
  cases h1 : e.1 with
  | none => exact ⟨fun h => h.1 h1, rfl⟩
  | some name =>
  rw [bind_ok (ofYaml_some _ _)]
  cases h2 : e.2.getC "mass" with
  | none => exact ⟨fun h => by (obtain ⟨-, ⟨m, hm⟩, -⟩ := h; rw [h2] at hm; cases hm), rfl⟩
  | some mass =>
  rw [bind_ok (ofYaml_some _ _)]
  cases h3 : e.2.getC "inertia" with
  | none => exact ⟨fun h => by (obtain ⟨-, -, ⟨z, hz, -⟩, -⟩ := h; cases h3.symm.trans hz), rfl⟩
  | some parI =>
  rw [bind_ok (ofYaml_some _ _)]
  cases h4 : e.2.getC "origin" with
  | none => exact ⟨fun h => by (obtain ⟨-, -, -, o, x, ho, -⟩ := h; cases h4.symm.trans ho), rfl⟩
  | some origin =>
  rw [bind_ok (ofYaml_some _ _)]
  cases h5 : mass.asD with
  | none => exact ⟨fun h => by (obtain ⟨-, ⟨m, hm⟩, -⟩ := h; rw [h2, Option.bind_some, h5] at hm; cases hm), rfl⟩
  | some m =>
  rw [bind_ok (ofYaml_some _ _)]
  cases h6 : (["xx", "xy", "xz", "yy", "yz", "zz"].mapM fun k => (parI.getM k).bind Yaml.asD) with
  | none =>
    refine ⟨fun h => ?_, rfl⟩
    obtain ⟨-, -, ⟨z, hz, hI⟩, -⟩ := h
    obtain rfl := Option.some.inj (h3.symm.trans hz)
    obtain ⟨r, hr⟩ := Wrap.mapM_isSome.2 hI
    cases h6.symm.trans hr
  | some I =>
  have hI := Wrap.mapM_isSome.1 ⟨I, h6⟩
  rw [bind_ok (ofYaml_some _ _)]
  cases h7 : origin.getM "xyz" with
  | none =>
    refine ⟨fun h => ?_, rfl⟩
    obtain ⟨-, -, -, o, x, ho, hx, -⟩ := h
    obtain rfl := Option.some.inj (h4.symm.trans ho)
    cases h7.symm.trans hx
  | some xyz =>
  rw [bind_ok (ofYaml_some _ _)]
  have hR : (xyz.isDef = true → xyz.asS ≠ none ∧ ∃ a, origin.getM "rpy" = some a ∧ (a.isDef = true → a.asS ≠ none)) → BodyReadable e := fun h =>
    ⟨by rw [h1]; exact Option.some_ne_none _, ⟨m, by rw [h2, Option.bind_some, h5]⟩, ⟨parI, h3, hI⟩, origin, xyz, h4, h7, h⟩
  have hN : BodyReadable e → xyz.isDef = true → xyz.asS ≠ none ∧ ∃ a, origin.getM "rpy" = some a ∧ (a.isDef = true → a.asS ≠ none) := by
    rintro ⟨-, -, -, o, x, ho, hx, h⟩
    obtain rfl := Option.some.inj (h4.symm.trans ho)
    obtain rfl := Option.some.inj (h7.symm.trans hx)
    exact h
  have hP : BodyPlaced e ↔ xyz.isDef = true ∧ ∃ a, origin.getM "rpy" = some a ∧ a.isDef = true := by
    constructor
    · rintro ⟨o, x, a, ho, hx, h8, h9, h10⟩
      obtain rfl := Option.some.inj (h4.symm.trans ho)
      obtain rfl := Option.some.inj (h7.symm.trans hx)
      exact ⟨h8, a, h9, h10⟩
    · rintro ⟨h8, a, h9, h10⟩
      exact ⟨origin, xyz, a, h4, h7, h8, h9, h10⟩
  by_cases hx : xyz.isDef = true
  swap
  · rw [if_neg hx]
    exact ⟨hR fun h => absurd h hx, rfl, by rw [if_neg fun h => hx (hP.1 h).1]; rfl⟩
  rw [if_pos hx]
  cases h8 : xyz.asS with
  | none => exact ⟨fun h => (hN h hx).1 h8, rfl⟩
  | some c =>
  rw [bind_ok (ofYaml_some _ _)]
  cases h9 : origin.getM "rpy" with
  | none => exact ⟨fun h => by (obtain ⟨-, a, ha, -⟩ := hN h hx; cases h9.symm.trans ha), rfl⟩
  | some rpy =>
  rw [bind_ok (ofYaml_some _ _)]
  by_cases ha : rpy.isDef = true
  swap
  · rw [if_neg ha]
    refine ⟨hR fun _ => ⟨by rw [h8]; exact Option.some_ne_none _, rpy, h9, fun h => absurd h ha⟩, rfl, ?_⟩
    rw [if_neg fun h => ?_]
    · rfl
    · obtain ⟨-, a, h10, h11⟩ := hP.1 h
      obtain rfl := Option.some.inj (h9.symm.trans h10)
      exact ha h11
  rw [if_pos ha]
  cases h10 : rpy.asS with
  | none =>
    refine ⟨fun h => ?_, rfl⟩
    obtain ⟨-, a, h11, h12⟩ := hN h hx
    obtain rfl := Option.some.inj (h9.symm.trans h11)
    exact h12 ha h10
  | some a =>
  rw [bind_ok (ofYaml_some _ _)]
  refine ⟨hR fun _ => ⟨by rw [h8]; exact Option.some_ne_none _, rpy, h9, fun _ => by rw [h10]; exact Option.some_ne_none _⟩, rfl, ?_⟩
  rw [if_pos (hP.2 ⟨hx, rpy, h9, ha⟩)]
  exact List.length_append

/-- The loop stores one body for each entry with place and angles before the first entry that cannot be read. -/
theorem loop_exact (scan : String → List Num) : ∀ (l : List (Option String × Yaml)) (i : ℕ) (s : St),
    ∃ s', (forIdx (fun _ => readEntry scan) i l s = .ok () s' ∨ forIdx (fun _ => readEntry scan) i l s = .yaml s') ∧ s'.files = s.files ∧
      s'.links.length = s.links.length + (l.takeWhile fun e => decide (BodyReadable e)).countP fun e => decide (BodyPlaced e)
  | [], _, s => ⟨s, .inl rfl, rfl, rfl⟩
  | e :: l, i, s => by
    have h := readEntry_exact scan e s
    rw [forIdx]
    cases hr : readEntry scan e s with
    | ok a s1 =>
      rw [hr] at h
      obtain ⟨h1, h2, h3⟩ := h
      obtain ⟨s', h4, h5, h6⟩ := loop_exact scan l (i + 1) s1
      refine ⟨s', by rw [bind_ok hr]; exact h4, h5.trans h2, ?_⟩
      rw [List.takeWhile_cons_of_pos (by simpa using h1), List.countP_cons, h6, h3]
      simp only [decide_eq_true_eq]
      omega
    | yaml s1 =>
      rw [hr] at h
      obtain ⟨h1, rfl⟩ := h
      exact ⟨s1, .inr (bind_yaml hr), rfl, by rw [List.takeWhile_cons_of_neg (by simpa using h1)]; rfl⟩
    | exc s1 => rw [hr] at h; exact h.elim
    | ub => rw [hr] at h; exact h.elim

theorem convert_iff {L : List LinkProp} : convert L = none ↔ L.length < 8 := by
  refine ⟨fun h => ?_, convert_short⟩
  by_contra hc
  obtain ⟨r, hr⟩ := Wrap.mapM_isSome (f := fun i => (L[i + 1]?).map fun u => transformBody (shift i) (angles i) u fresh) (l := List.range 7) |>.2
    fun i hi => ⟨_, by rw [List.getElem?_eq_getElem (show i + 1 < L.length by have := List.mem_range.1 hi; omega), Option.map_some]⟩
  cases h.symm.trans hr

/-- C68, exactly: the program reads outside its vector exactly when fewer than eight entries with place and angles stand before the first entry that cannot be
read.  In all other cases it writes the seven files (`C68_all_or_ub`). -/
theorem C68_iff (scan : String → List Num) (draw : ℕ → ℕ → ℕ → ℝ) (y : Yaml) :
    main scan draw (some y) start = .ub ↔ ((y.items.takeWhile fun e => decide (BodyReadable e)).countP fun e => decide (BodyPlaced e)) < 8 := by
  obtain ⟨s', h1, h2, h3⟩ := loop_exact scan y.items 0 start
  have hr : readFile scan (some y) start = .ok () s' := by
    unfold readFile tryYaml
    rw [bind_ok (ofYaml_some _ _)]
    rcases h1 with h | h
    · rw [h]
    · rw [h]; rfl
  have h4 : s'.links.length = (y.items.takeWhile fun e => decide (BodyReadable e)).countP fun e => decide (BodyPlaced e) := h3.trans (Nat.zero_add _)
  rw [← h4, ← convert_iff]
  unfold main
  rw [bind_ok hr, bind_ok (read_run _)]
  cases h : convert s'.links with
  | none => exact iff_of_true (bind_ub rfl) rfl
  | some dh =>
    rw [bind_ok (show (ofIdx (some dh) : Act St _) s' = .ok dh s' from rfl)]
    exact iff_of_false (by rintro ⟨⟩) (by rintro ⟨⟩)

namespace Ex

open Thunder.Ex

theorem rod_readable (name text : String) : BodyReadable (rod name text) ∧ BodyPlaced (rod name text) := by
  refine ⟨⟨Option.some_ne_none _, ⟨_, rfl⟩, ⟨_, rfl, fun k hk => ?_⟩, _, _, rfl, rfl, fun _ => ⟨Option.some_ne_none _, _, rfl, fun _ => Option.some_ne_none _⟩⟩,
    _, _, _, rfl, rfl, rfl, rfl, rfl⟩
  simp only [List.mem_cons, List.not_mem_nil, or_false] at hk
  rcases hk with rfl | rfl | rfl | rfl | rfl | rfl <;> exact ⟨_, rfl⟩

/-- With eight rods the program writes its files; with an entry that cannot be read among them it reads outside its vector. -/
example (scan : String → List Num) (draw : ℕ → ℕ → ℕ → ℝ) : main scan draw (some (.map (List.replicate 8 (rod "a" "0 0 0")))) start ≠ .ub ∧
    main scan draw (some (.map (List.replicate 7 (rod "a" "0 0 0") ++ (some "b", .null) :: List.replicate 7 (rod "a" "0 0 0")))) start = .ub := by
  have h := rod_readable "a" "0 0 0"
  have hb : ¬ BodyReadable (some "b", .null) := by
    rintro ⟨-, ⟨m, hm⟩, -⟩
    cases hm
  refine ⟨fun e => ?_, (C68_iff scan draw _).2 ?_⟩
  · have := (C68_iff scan draw _).1 e
    simp [Yaml.items, List.replicate, h.1, h.2] at this
  · simp [Yaml.items, List.replicate, h.1, h.2, hb]

end Ex

end Thunder.Urdf
