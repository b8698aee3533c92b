import Verif.Lemmas.GenYaml
import Verif.Props.Shipped
import Verif.Props.WrapperFile

/-!
# C66: splitting a robot file into parameter files

`genInertial_files` (src/genYaml.cpp).  The claim is true for files that declare no friction, have links of different names, and are read with the number
of joints of the file.  It is false otherwise: with friction declared nothing is written; links of the same name are merged; with too small a number of
joints the function writes outside its vector; with too large a number it adds links without mass.
-/

namespace Thunder.GenYaml

open Act Spec Robot

/-- C66 for files without friction: the function returns 1 and writes two files, first the one for the regressor.  The latter lists the links with their
linear parameters, the other one with the parameters of the robot file, exactly when the names of the links are different.  The second file has the
layout read by `load_conf_par` (`DynamicsSection`, see C39). -/
theorem C66_files_partial {y : Yaml} {n : ℕ} {name : ℕ → String} {p : ℕ → ℝ} (h : LinkList y n name "CoM_" fun i j => some (p (10 * i + j))) (ho : NoFriction y)
    (hn : 0 < n) (a b : String) : ∃ R D s, genInertial n (some y) a b start = .ok 1 s ∧ s.files = [(b, R), (a, D)] ∧
      (LinkList R n name "m_CoM_" (fun i j => some (reg p (10 * i + j))) ↔ ∀ i < n, ∀ j < n, name i = name j → i = j) ∧
      (LinkList D n name "CoM_" (fun i j => some (p (10 * i + j))) ↔ ∀ i < n, ∀ j < n, name i = name j → i = j) ∧
      ((∀ i < n, ∀ j < n, name i = name j → i = j) → DynamicsSection D n (fun i j => some (p (10 * i + j))) 0 fun _ _ => some 0) := by
  obtain ⟨s, e, h1, h2⟩ := run_ok h ho le_rfl a b
  rw [Nat.sub_self, List.replicate_zero, List.append_nil] at h1
  refine ⟨_, _, s, e, h2, ⟨names_of_fill, fun hi => ?_⟩, ⟨names_of_fill, fun hi => ?_⟩, fun hi => ?_⟩
  · rw [h1, List.map_map]
    refine linkList_fill (g := regProp ∘ fun i => propOf (name i) ((List.range 10).map fun j => some (p (10 * i + j))) [some 0]) (.inl rfl) hn
      hi fun i _ k hk => ?_
    rw [reg_eq_linParOf p i hk]
    exact tenOf_regProp (name i) (fun j => p (10 * i + j)) _ hk
  · rw [h1]
    exact linkList_fill (g := fun i => propOf (name i) ((List.range 10).map fun j => some (p (10 * i + j))) [some 0]) (.inr rfl) hn hi fun i _ k hk =>
      tenOf_propOf (name i) (fun j => some (p (10 * i + j))) _ hk
  · rw [h1, fill_eq (g := fun i => propOf (name i) ((List.range 10).map fun j => some (p (10 * i + j))) [some 0]) hn hi]
    refine ⟨_, child_of_lookup rfl, by simp, fun i hi => ⟨name i, Wrap.linkNode "CoM_" (tenOf (propOf (name i) ((List.range 10).map
      fun j => some (p (10 * i + j))) [some 0])) [some 0], by simp [hi, propOf], ?_, ?_⟩, ?_⟩
    · obtain ⟨z, hz, hz'⟩ := inertial_linkNode (.inr rfl) (tenOf (propOf (name i) ((List.range 10).map fun j => some (p (10 * i + j))) [some 0])) [some 0]
      exact ⟨z, hz, inertial_congr hz' fun k hk => tenOf_propOf (name i) (fun j => some (p (10 * i + j))) _ hk⟩
    · refine .inr ⟨.map [(some "Dl", Yaml.ofVec [some 0])], ?_, .seq [Yaml.ofD (some 0)], [some 0], child_of_lookup rfl, rfl, Nat.zero_le _, ?_⟩
      · rw [linkNode_eq (.inr rfl)]
        exact child_of_lookup rfl
      · intro j hj
        omega
    · intro x hx
      obtain ⟨i, -, rfl⟩ := List.mem_map.1 hx
      exact ⟨_, linkNode_eq (.inr rfl) _ _⟩

/-- C66: the files written go back into an object of the generated class of a robot without friction, whatever was done with the object before: `load_par_REG`
of the first file stores the linear parameters of the robot file, `load_conf` of the second one its parameters; nothing else changes. -/
theorem C66_loaded_partial {y : Yaml} {c : Wrap.Cfg} {name : ℕ → String} {p : ℕ → ℝ} (h : LinkList y c.n name "CoM_" fun i j => some (p (10 * i + j)))
    (ho : NoFriction y) (hn : 0 < c.n) (hi : ∀ i < c.n, ∀ j < c.n, name i = name j → i = j) (hd : c.dlOrd = 0) (calls : List Wrap.Call) {o : Wrap.Obj}
    (e : Wrap.runAll c calls (Wrap.init c) = some o) (a b : String) :
    ∃ R D s, genInertial c.n (some y) a b start = .ok 1 s ∧ s.files = [(b, R), (a, D)] ∧
      (∃ o', (Wrap.Call.loadREG (some R) false).run c o = some o' ∧ o'.vec .REG = vecN (10 * c.n) (reg p) ∧ (∀ f, f ≠ .REG → o'.vec f = o.vec f) ∧
        o'.symb = o.symb) ∧
      ∃ o', (Wrap.Call.loadConf (some D) false).run c o = some o' ∧ o'.vec .DYN = vecN (10 * c.n) p ∧ (∀ f, f ≠ .DYN → o'.vec f = o.vec f) ∧
        o'.symb = o.symb := by
  obtain ⟨R, D, s, e1, e2, h1, -⟩ := C66_files_partial h ho hn a b
  obtain ⟨s', e1', h2, h3⟩ := run_ok h ho le_rfl a b
  cases e1.symm.trans e1'
  have hs := Wrap.sized_runAll calls (Wrap.sized_init c) e
  rw [Nat.sub_self, List.replicate_zero, List.append_nil] at h2
  have hD : D = fill "CoM_" s.dh := by
    have := e2.symm.trans h3
    simp only [List.cons.injEq, Prod.mk.injEq, true_and, and_true] at this
    exact this.2
  rw [h2, fill_eq (g := fun i => propOf (name i) ((List.range 10).map fun j => some (p (10 * i + j))) [some 0]) hn hi] at hD
  refine ⟨R, D, s, e1, e2, ⟨_, loadREG_links hs (h1.2 hi), ?_, fun f hf => Wrap.set_vec_ne _ _ hf, rfl⟩, ?_⟩
  · rw [Wrap.set_vec_same]
  · rw [hD]
    refine ⟨_, loadConf_links hs hd (by simp) (p := p) fun i hi => ⟨some [some 0], ?_⟩, ?_, fun f hf => Wrap.set_vec_ne _ _ hf, rfl⟩
    · simp only [List.getElem_map, List.getElem_range]
      obtain ⟨inertial, fr, g1, g2, g3, g4, g5⟩ := Wrap.read_linkNode (Or.inr rfl : "CoM_" = "m_CoM_" ∨ _)
        (tenOf (propOf (name i) ((List.range 10).map fun j => some (p (10 * i + j))) [some 0])) [some 0]
      have g6 : (List.range 10).map (tenOf (propOf (name i) ((List.range 10).map fun j => some (p (10 * i + j))) [some 0])) =
          (List.range 10).map fun j => some (p (10 * i + j)) :=
        List.map_congr_left fun k hk => tenOf_propOf (name i) (fun j => some (p (10 * i + j))) _ (List.mem_range.1 hk)
      rw [g6] at g3
      unfold Wrap.readDynLink Wrap.readLink
      simp only [propOf, Option.bind_some] at g1 g2 g5 ⊢
      rw [g1, Option.bind_some, g3, Option.bind_some, g2, Option.bind_some, if_pos g4, g5]
      rfl
    · rw [Wrap.set_vec_same]

/-- C66 is false when friction is declared: for every file with friction whose first link has no entry `Dl` of its own (the layout read by all other functions
has it in the section `friction`) the function returns 0 and writes nothing, whatever the number of joints. -/
theorem C66_friction_fails {y : Yaml} {ord : ℤ} {nd z : Yaml} {key : String} {l : List (Option String × Yaml)} {P : ℕ → Num} (ho : Entry Yaml.asI y "Dl_order" ord)
    (h0 : 0 < ord) (hy : Child y "dynamics" (.map ((some key, nd) :: l))) (hz : Child nd "inertial" z) (hP : Inertial z "CoM_" P) (hd : NoChild nd "Dl")
    (n : ℕ) (a b : String) : ∃ s, genInertial n (some y) a b start = .ok 0 s ∧ s.files = [] := by
  refine ⟨⟨List.replicate n blank, List.replicate n blank, []⟩, ?_, rfl⟩
  rw [genInertial_run]
  have e : readAll y ⟨List.replicate n blank, List.replicate n blank, []⟩ = .yaml ⟨List.replicate n blank, List.replicate n blank, []⟩ := by
    rw [readAll_order hy ho]
    exact bind_yaml (readLink_noDl h0 hz hP hd _)
  unfold tryYaml
  rw [bind_yaml e]
  rfl

/-- C66 is false when the number of joints is smaller than the number of links: the function writes outside its vector. -/
theorem C66_overrun {y : Yaml} {n m : ℕ} {name : ℕ → String} {P : ℕ → ℕ → Num} (h : LinkList y m name "CoM_" P) (ho : NoFriction y) (hm : n < m)
    (a b : String) : genInertial n (some y) a b start = .ub := by
  obtain ⟨l, h1, h2, h3⟩ := h
  have e := loop_ub l _ 0 ⟨List.replicate n blank, List.replicate n blank, []⟩ (mapM_links h2 h3) (by simp) (by simp; omega)
  rw [genInertial_run]
  unfold tryYaml
  rw [bind_ub (show readAll y _ = .ub by rw [readAll_run h1 ho]; exact e)]

/-- C66 is false when the number of joints is larger than the number of links: a link without name and mass is added to the files. -/
theorem C66_short {y : Yaml} {n m : ℕ} {name : ℕ → String} {P : ℕ → ℕ → Num} (h : LinkList y m name "CoM_" P) (ho : NoFriction y) (hm : m < n)
    (a b : String) : ∃ R D s, genInertial n (some y) a b start = .ok 1 s ∧ s.files = [(b, R), (a, D)] ∧
      ∀ f ∈ [R, D], ∃ d nd z, Child f "dynamics" d ∧ Child d "" nd ∧ Child nd "inertial" z ∧ Number z "mass" (some 0) := by
  obtain ⟨s, e, h1, h2⟩ := run_ok h ho hm.le a b
  obtain ⟨k, hk⟩ : ∃ k, n - m = k + 1 := ⟨n - m - 1, by omega⟩
  rw [hk, List.replicate_succ', ← List.append_assoc] at h1
  refine ⟨_, _, s, e, h2, ?_⟩
  rw [h1, List.map_append]
  intro f hf
  rcases List.mem_cons.1 hf with rfl | hf
  · exact blank_fill (.inl rfl) _ rfl rfl
  · rcases List.mem_cons.1 hf with rfl | hf
    · exact blank_fill (.inr rfl) _ rfl rfl
    · cases hf

/-- C66, any file and any number of joints that is not negative: either nothing is written and the result is 0, or both files are written and the result is 1, or
the function ends with an exception and has written nothing; the behaviour is defined whenever there are no more entries in the section `dynamics` than joints. -/
theorem C66_all_or_nothing (n : ℕ) (file : Option Yaml) (a b : String) : match genInertial n file a b start with
    | .ok v s => (v = 0 ∧ s.files = []) ∨ (v = 1 ∧ s.files.map Prod.fst = [b, a])
    | .yaml _ => False
    | .exc s => s.files = []
    | .ub => ∃ y d, file = some y ∧ y.getM "dynamics" = some d ∧ n < d.items.length := by
  unfold genInertial
  rw [if_neg (by omega), bind_ok (modify_run _ _)]
  have key : ∀ (y : Yaml) (s : St), match readAll y s with
      | .ok _ s' => s'.files = s.files ∧ s'.dh.length = s.dh.length
      | .yaml s' => s'.files = s.files
      | .exc s' => s'.files = s.files
      | .ub => ∃ d, y.getM "dynamics" = some d ∧ s.dh.length < d.items.length := by
    intro y s
    unfold readAll
    cases h1 : y.getM "dynamics" with
    | none => exact rfl
    | some d =>
      rw [bind_ok (ofYaml_some _ _)]
      cases h2 : y.getM "Dl_order" with
      | none => exact rfl
      | some o =>
        rw [bind_ok (ofYaml_some _ _)]
        have hl : ∀ ord : ℤ, match forIdx (readLink ord) 0 d.items s with
            | .ok _ s' => s'.files = s.files ∧ s'.dh.length = s.dh.length
            | .yaml s' => s'.files = s.files
            | .exc s' => s'.files = s.files
            | .ub => ∃ d', some d = some d' ∧ s.dh.length < d'.items.length := by
          intro ord
          have := loop_files ord d.items 0 s
          revert this
          cases forIdx (readLink ord) 0 d.items s with
          | ub => exact fun h => ⟨d, rfl, by simpa using h⟩
          | _ => exact id
        split_ifs
        · cases h3 : o.asI with
          | none => exact rfl
          | some ord => rw [bind_ok (ofYaml_some _ _)]; exact hl ord
        · rw [bind_ok (pure_run _ _)]; exact hl 0
  cases file with
  | none => exact .inl ⟨rfl, rfl⟩
  | some y =>
    have := key y ⟨List.replicate n blank, List.replicate n blank, []⟩
    unfold tryYaml
    simp only [Int.toNat_natCast]
    rw [bind_ok (ofYaml_some _ _)]
    cases hr : readAll y ⟨List.replicate n blank, List.replicate n blank, []⟩ with
    | ok u s' =>
      rw [hr] at this
      rw [bind_ok (show readAll y { start with dh := List.replicate n blank, reg := List.replicate n blank } = _ from hr)]
      refine .inr ⟨rfl, ?_⟩
      simp [this.1]
    | yaml s' =>
      rw [hr] at this
      rw [bind_yaml (show readAll y { start with dh := List.replicate n blank, reg := List.replicate n blank } = _ from hr)]
      exact .inl ⟨rfl, this⟩
    | exc s' =>
      rw [hr] at this
      rw [bind_exc (show readAll y { start with dh := List.replicate n blank, reg := List.replicate n blank } = _ from hr)]
      exact this
    | ub =>
      rw [hr] at this
      rw [bind_ub (show readAll y { start with dh := List.replicate n blank, reg := List.replicate n blank } = _ from hr)]
      obtain ⟨d, h1, h2⟩ := this
      exact ⟨y, d, rfl, h1, by simpa using h2⟩

/-- C66 for well-formed robot files without friction. -/
theorem C66_described_partial {y : Yaml} {c : Conf} (h : Describes y c) (h0 : c.dlO = 0) (hn : 0 < c.n)
    (hk : ∀ l, Child y "dynamics" (.map l) → (l.map Prod.fst).Nodup) (a b : String) :
    ∃ R D s name, genInertial c.n (some y) a b start = .ok 1 s ∧ s.files = [(b, R), (a, D)] ∧
      LinkList y c.n name "CoM_" (fun i j => some (c.dyn (10 * i + j))) ∧ LinkList R c.n name "m_CoM_" (fun i j => some (reg c.dyn (10 * i + j))) ∧
      LinkList D c.n name "CoM_" (fun i j => some (c.dyn (10 * i + j))) := by
  obtain ⟨name, hl⟩ := linkList_describes h
  obtain ⟨R, D, s, e1, e2, h1, h2, -⟩ := C66_files_partial hl (noFriction_describes h h0) hn a b
  exact ⟨R, D, s, name, e1, e2, hl, h1.2 (names_of_nodup hk hl), h2.2 (names_of_nodup hk hl)⟩

theorem fleet_keys : ∀ p ∈ fleet, keysCheck p.2.1 = true := by
  unfold fleet
  simp only [List.forall_mem_cons]
  refine ⟨?_, ?_, ?_, ?_, ?_, ?_, ?_, ?_, ?_, ?_, ?_, ?_, ?_, ?_, ?_, ?_, fun _ h => absurd h List.not_mem_nil⟩ <;> decide +kernel

/-- C66 for the robot files of the repository: those without friction are split, for those with friction nothing is written. -/
theorem C66_fleet : ∀ p ∈ fleet, ∀ a b,
    (p.2.2.dlO = 0 → ∃ R D s name, genInertial p.2.2.n (some p.2.1) a b start = .ok 1 s ∧ s.files = [(b, R), (a, D)] ∧
      LinkList R p.2.2.n name "m_CoM_" (fun i j => some (reg p.2.2.dyn (10 * i + j))) ∧
      LinkList D p.2.2.n name "CoM_" fun i j => some (p.2.2.dyn (10 * i + j))) ∧
    (0 < p.2.2.dlO → ∃ s, genInertial p.2.2.n (some p.2.1) a b start = .ok 0 s ∧ s.files = []) := by
  intro p hp a b
  have h := C65_sound p hp
  have hk := fleet_keys p hp
  have hn : 0 < p.2.2.n := by
    revert p
    unfold fleet
    simp only [List.forall_mem_cons]
    refine ⟨?_, ?_, ?_, ?_, ?_, ?_, ?_, ?_, ?_, ?_, ?_, ?_, ?_, ?_, ?_, ?_, fun _ h => absurd h List.not_mem_nil⟩ <;> intros <;> decide
  constructor
  · intro h0
    obtain ⟨R, D, s, name, e1, e2, -, h1, h2⟩ := C66_described_partial h.describes h0 hn (keysCheck_nodup hk) a b
    exact ⟨R, D, s, name, e1, e2, h1, h2⟩
  · intro h0
    obtain ⟨l, h1, h2, h3⟩ := h.describes.links
    obtain ⟨key, nd, h4, ⟨z, hz, hi, -⟩, -⟩ := h3 0 hn
    have ho : Entry Yaml.asI p.2.1 "Dl_order" p.2.2.dlO := by
      rcases h.describes.dlO with ⟨-, h⟩ | h
      · omega
      · exact h
    cases l with
    | nil => cases h4
    | cons e l =>
      cases h4
      exact C66_friction_fails ho (by omega) h1 hz hi (keysCheck_Dl hk h1 _ List.mem_cons_self) _ a b

/-! ## Examples -/

namespace Ex

/-- A link with the ten numbers 1. -/
noncomputable def link : Yaml := .map [(some "inertial", .map ((List.range 10).map fun k => (some ((Wrap.inertialKeys "CoM_").getD k ""), Yaml.ofD (some 1))))]
/-- A file with two links of the given names. -/
noncomputable def twoLinks (a b : String) : Yaml := .map [(some "dynamics", .map [(some a, link), (some b, link)])]

theorem linkList_two (a b : String) : LinkList (twoLinks a b) 2 (fun i => if i = 0 then a else b) "CoM_" fun _ _ => some 1 := by
  have hi : ∃ z, Child link "inertial" z ∧ Inertial z "CoM_" fun _ => some 1 := by
    refine ⟨_, child_of_lookup rfl, ?_⟩
    unfold Inertial
    exact ⟨⟨_, child_of_lookup rfl, rfl⟩, ⟨_, child_of_lookup rfl, rfl⟩, ⟨_, child_of_lookup rfl, rfl⟩, ⟨_, child_of_lookup rfl, rfl⟩,
      ⟨_, child_of_lookup rfl, rfl⟩, ⟨_, child_of_lookup rfl, rfl⟩, ⟨_, child_of_lookup rfl, rfl⟩, ⟨_, child_of_lookup rfl, rfl⟩,
      ⟨_, child_of_lookup rfl, rfl⟩, ⟨_, child_of_lookup rfl, rfl⟩⟩
  obtain ⟨z, h1, h2⟩ := hi
  refine ⟨_, child_of_lookup rfl, rfl, fun i hi => ?_⟩
  have : i = 0 ∨ i = 1 := by omega
  rcases this with rfl | rfl
  · exact ⟨link, z, rfl, h1, h2⟩
  · exact ⟨link, z, rfl, h1, h2⟩

theorem noFriction_two (a b : String) : NoFriction (twoLinks a b) := .inl ⟨_, rfl, by simp⟩

/-- Two links of different names: both files list them. -/
example (a b : String) : ∃ R D s, genInertial 2 (some (twoLinks "l1" "l2")) a b start = .ok 1 s ∧ s.files = [(b, R), (a, D)] ∧
    LinkList R 2 (fun i => if i = 0 then "l1" else "l2") "m_CoM_" fun i j => some (reg (fun _ => 1) (10 * i + j)) := by
  obtain ⟨R, D, s, e1, e2, h, -⟩ := C66_files_partial (p := fun _ => 1) (linkList_two "l1" "l2") (noFriction_two _ _) (by decide) a b
  refine ⟨R, D, s, e1, e2, h.2 fun i hi j hj => ?_⟩
  have : (i = 0 ∨ i = 1) ∧ (j = 0 ∨ j = 1) := by omega
  rcases this with ⟨rfl | rfl, rfl | rfl⟩ <;> simp

/-- Two links of the same name: the file for the regressor does not list them. -/
example (a b : String) : ∃ R D s, genInertial 2 (some (twoLinks "l" "l")) a b start = .ok 1 s ∧ s.files = [(b, R), (a, D)] ∧
    ¬ LinkList R 2 (fun i => if i = 0 then "l" else "l") "m_CoM_" fun i j => some (reg (fun _ => 1) (10 * i + j)) := by
  obtain ⟨R, D, s, e1, e2, h, -⟩ := C66_files_partial (p := fun _ => 1) (linkList_two "l" "l") (noFriction_two _ _) (by decide) a b
  refine ⟨R, D, s, e1, e2, fun hR => ?_⟩
  exact absurd (h.1 hR 0 (by decide) 1 (by decide) (by simp)) (by decide)

/-- One joint for two links. -/
example (a b : String) : genInertial 1 (some (twoLinks "l1" "l2")) a b start = .ub :=
  C66_overrun (linkList_two "l1" "l2") (noFriction_two _ _) (by decide) a b

/-- Three joints for two links. -/
example (a b : String) : ∃ R D s, genInertial 3 (some (twoLinks "l1" "l2")) a b start = .ok 1 s ∧ s.files = [(b, R), (a, D)] ∧
    ∀ f ∈ [R, D], ∃ d nd z, Child f "dynamics" d ∧ Child d "" nd ∧ Child nd "inertial" z ∧ Number z "mass" (some 0) :=
  C66_short (linkList_two "l1" "l2") (noFriction_two _ _) (by decide) a b

/-- An object of the class generated for the file with two links. -/
example (a b : String) : ∃ R D s, genInertial 2 (some (twoLinks "l1" "l2")) a b start = .ok 1 s ∧ s.files = [(b, R), (a, D)] ∧
    ∃ o', (Wrap.Call.loadREG (some R) false).run ⟨2, 0, 0, 0, 0, 0⟩ (Wrap.init ⟨2, 0, 0, 0, 0, 0⟩) = some o' ∧ o'.vec .REG = vecN 20 (reg fun _ => 1) := by
  obtain ⟨R, D, s, e1, e2, ⟨o', h1, h2, -⟩, -⟩ := C66_loaded_partial (c := ⟨2, 0, 0, 0, 0, 0⟩) (p := fun _ => 1) (linkList_two "l1" "l2") (noFriction_two _ _)
    (by decide) (fun i hi j hj => by
      have : (i = 0 ∨ i = 1) ∧ (j = 0 ∨ j = 1) := by change i < 2 at hi; change j < 2 at hj; omega
      rcases this with ⟨rfl | rfl, rfl | rfl⟩ <;> simp) rfl [] rfl a b
  exact ⟨R, D, s, e1, e2, o', h1, h2⟩

/-- Robots of the repository without and with friction. -/
example : (∃ p ∈ fleet, p.2.2.dlO = 0) ∧ ∃ p ∈ fleet, 0 < p.2.2.dlO :=
  ⟨⟨("RRR", Thunder.Ship.RRR, Ship.RRRC), by simp [fleet], by decide⟩, ⟨("seaRRR", Thunder.Ship.seaRRR, Ship.seaRRRC), by simp [fleet], by decide⟩⟩

end Ex

end Thunder.GenYaml
