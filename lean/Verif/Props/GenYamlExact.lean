import Verif.Props.GenYaml
import Verif.Props.WrapperExact

/-!
# C66: the exact conditions

For every file and every number of joints, when `genInertial_files` writes the files, when it ends with an exception, and when it accesses memory outside its
vector.
-/

namespace Thunder.Spec

/-- The section `dynamics` of a file and the number `Dl_order` (0 if there is none). -/
def Header (y d : Yaml) (ord : ℤ) : Prop :=
  y.getM "dynamics" = some d ∧ ∃ o, y.getM "Dl_order" = some o ∧ if o.isDef then o.asI = some ord else ord = 0

/-- An entry of the section `dynamics` as `genInertial_files` reads it: with friction declared, the vector `Dl` is an entry of the link itself. -/
def Splits (ord : ℤ) (e : Option String × Yaml) : Prop :=
  LinkReadable "CoM_" e ∧
    (ord = 0 ∨ 0 < ord ∧ e.2.getC "friction" ≠ none ∧ ∃ v, (e.2.getC "Dl").bind (Yaml.asVec Yaml.asD) = some v)

end Thunder.Spec

namespace Thunder.GenYaml

open Act Spec Robot

theorem Header.unique {y d d' : Yaml} {o o' : ℤ} (h : Header y d o) (h' : Header y d' o') : d = d' ∧ o = o' := by
  obtain ⟨h1, x, h2, h3⟩ := h
  obtain ⟨h1', x', h2', h3'⟩ := h'
  obtain rfl := Option.some.inj (h2.symm.trans h2')
  refine ⟨Option.some.inj (h1.symm.trans h1'), ?_⟩
  split_ifs at h3 h3'
  · exact Option.some.inj (h3.symm.trans h3')
  · exact h3.trans h3'.symm

theorem readDl_exact (ord : ℤ) (nd : Yaml) (s : St) : match readDl ord nd s with
    | .ok _ s' => s' = s ∧ (ord = 0 ∨ 0 < ord ∧ nd.getC "friction" ≠ none ∧ ∃ v, (nd.getC "Dl").bind (Yaml.asVec Yaml.asD) = some v)
    | .yaml _ => 0 < ord ∧ ¬ (nd.getC "friction" ≠ none ∧ ∃ v, (nd.getC "Dl").bind (Yaml.asVec Yaml.asD) = some v)
    | .exc _ => ord < 0
    | .ub => False := by
  unfold readDl
  split_ifs with h0 h1
  · exact ⟨rfl, .inl h0⟩
  · exact h1
  · have hp : 0 < ord := by omega
    cases h1 : nd.getC "friction" with
    | none => exact ⟨hp, fun h => h.1 rfl⟩
    | some z =>
      rw [bind_ok (ofYaml_some _ _)]
      cases h2 : nd.getC "Dl" with
      | none => exact ⟨hp, fun h => by obtain ⟨-, v, hv⟩ := h; cases hv⟩
      | some v =>
        rw [bind_ok (ofYaml_some _ _)]
        cases h3 : v.asVec Yaml.asD with
        | none => exact ⟨hp, fun h => by obtain ⟨-, w, hw⟩ := h; rw [Option.bind_some, h3] at hw; cases hw⟩
        | some w => exact ⟨rfl, .inr ⟨hp, Option.some_ne_none z, w, h3⟩⟩

/-- One iteration. -/
theorem readLink_exact (ord : ℤ) (i : ℕ) (e : Option String × Yaml) (s : St) : match readLink ord i e s with
    | .ok _ s' => s'.dh.length = s.dh.length ∧ i < s.dh.length ∧ Splits ord e
    | .yaml _ => ¬ Splits ord e ∧ ¬ (ord < 0 ∧ LinkReadable "CoM_" e)
    | .exc _ => ord < 0 ∧ LinkReadable "CoM_" e
    | .ub => ¬ i < s.dh.length ∧ Splits ord e := by
  obtain ⟨k, nd⟩ := e
  unfold readLink
  cases h : nd.getC "inertial" with
  | none =>
    have : ¬ LinkReadable "CoM_" (k, nd) := fun ⟨_, z, hz, _⟩ => by cases h.symm.trans hz
    exact ⟨fun h => this h.1, fun h => this h.2⟩
  | some z =>
    rw [bind_ok (ofYaml_some _ _)]
    cases k with
    | none =>
      have : ¬ LinkReadable "CoM_" (none, nd) := fun ⟨h, _⟩ => h rfl
      exact ⟨fun h => this h.1, fun h => this h.2⟩
    | some name =>
      rw [bind_ok (ofYaml_some _ _)]
      cases hp : Wrap.readInertial "CoM_" z with
      | none =>
        have : ¬ LinkReadable "CoM_" (some name, nd) := fun ⟨_, z', hz, hr⟩ => by
          obtain rfl := Option.some.inj (h.symm.trans hz)
          obtain ⟨p, hp'⟩ := Wrap.readInertial_iff.2 hr
          cases hp.symm.trans hp'
        exact ⟨fun h => this h.1, fun h => this h.2⟩
      | some p =>
        have hL : LinkReadable "CoM_" (some name, nd) := ⟨Option.some_ne_none _, z, h, Wrap.readInertial_iff.1 ⟨p, hp⟩⟩
        rw [bind_ok (ofYaml_some _ _)]
        have hd := readDl_exact ord nd s
        cases hr : readDl ord nd s with
        | ok dl s' =>
          rw [hr] at hd
          obtain ⟨rfl, hd⟩ := hd
          rw [bind_ok hr]
          show match putAt i (propOf name p dl) s' with | .ok _ _ => _ | .yaml _ => _ | .exc _ => _ | .ub => _
          unfold putAt
          rw [bind_ok (read_run _)]
          split_ifs with hi
          · exact ⟨List.length_set, hi, hL, hd⟩
          · exact ⟨hi, hL, hd⟩
        | yaml s' =>
          rw [hr] at hd
          rw [bind_yaml hr]
          exact ⟨fun h => h.2.elim (fun h => by omega) fun h => hd.2 h.2, fun h => by omega⟩
        | exc s' =>
          rw [hr] at hd
          rw [bind_exc hr]
          exact ⟨hd, hL⟩
        | ub => rw [hr] at hd; exact hd.elim

/-- The loop. -/
theorem loop_exact (ord : ℤ) : ∀ (L : List (Option String × Yaml)) (i : ℕ) (s : St), i ≤ s.dh.length → match forIdx (readLink ord) i L s with
    | .ok _ _ => i + L.length ≤ s.dh.length ∧ ∀ e ∈ L, Splits ord e
    | .yaml _ => (∃ e ∈ L.take (s.dh.length - i + 1), ¬ Splits ord e) ∧ ¬ (ord < 0 ∧ ∃ e L', L = e :: L' ∧ LinkReadable "CoM_" e)
    | .exc _ => ord < 0 ∧ ∃ e L', L = e :: L' ∧ LinkReadable "CoM_" e
    | .ub => s.dh.length < i + L.length ∧ ∀ e ∈ L.take (s.dh.length - i + 1), Splits ord e
  | [], i, s, hi => ⟨hi, fun _ h => absurd h List.not_mem_nil⟩
  | e :: L, i, s, hi => by
    rw [forIdx]
    have h := readLink_exact ord i e s
    cases hr : readLink ord i e s with
    | ok a s' =>
      rw [hr] at h
      obtain ⟨h1, h2, h3⟩ := h
      have hneg : ¬ ord < 0 := fun h => h3.2.elim (fun h => by omega) fun h => by omega
      rw [bind_ok hr]
      have ih := loop_exact ord L (i + 1) s' (by omega)
      rw [h1] at ih
      have hsub : s.dh.length - (i + 1) + 1 = s.dh.length - i := by omega
      rw [hsub] at ih
      cases hl : forIdx (readLink ord) (i + 1) L s' with
      | ok b s'' =>
        rw [hl] at ih
        exact ⟨by rw [List.length_cons]; omega, fun x hx => (List.mem_cons.1 hx).elim (fun h => h ▸ h3) (ih.2 x)⟩
      | yaml s'' =>
        rw [hl] at ih
        obtain ⟨⟨x, hx, hn⟩, -⟩ := ih
        exact ⟨⟨x, by rw [List.take_succ_cons]; exact List.mem_cons_of_mem _ hx, hn⟩, fun h => hneg h.1⟩
      | exc s'' => rw [hl] at ih; exact absurd ih.1 hneg
      | ub =>
        rw [hl] at ih
        refine ⟨by rw [List.length_cons]; omega, fun x hx => ?_⟩
        rw [List.take_succ_cons] at hx
        exact (List.mem_cons.1 hx).elim (fun h => h ▸ h3) (ih.2 x)
    | yaml s' =>
      rw [hr] at h
      rw [bind_yaml hr]
      refine ⟨⟨e, by rw [List.take_succ_cons]; exact List.mem_cons_self, h.1⟩, fun ⟨h1, x, L', h2, h3⟩ => ?_⟩
      obtain ⟨rfl, -⟩ := List.cons.inj h2
      exact h.2 ⟨h1, h3⟩
    | exc s' => rw [hr] at h; rw [bind_exc hr]; exact ⟨h.1, e, L, rfl, h.2⟩
    | ub =>
      rw [hr] at h
      rw [bind_ub hr]
      obtain rfl : i = s.dh.length := by omega
      refine ⟨by rw [List.length_cons]; omega, fun x hx => ?_⟩
      rw [Nat.sub_self, List.take_succ_cons, List.take_zero, List.mem_singleton] at hx
      exact hx ▸ h.2

theorem readAll_exact (y : Yaml) (s : St) : match readAll y s with
    | .ok _ _ => ∃ d ord, Header y d ord ∧ d.items.length ≤ s.dh.length ∧ ∀ e ∈ d.items, Splits ord e
    | .yaml _ => ∀ d ord, Header y d ord → (∃ e ∈ d.items.take (s.dh.length + 1), ¬ Splits ord e) ∧ ¬ (ord < 0 ∧ ∃ e L, d.items = e :: L ∧ LinkReadable "CoM_" e)
    | .exc _ => ∃ d ord, Header y d ord ∧ ord < 0 ∧ ∃ e L, d.items = e :: L ∧ LinkReadable "CoM_" e
    | .ub => ∃ d ord, Header y d ord ∧ s.dh.length < d.items.length ∧ ∀ e ∈ d.items.take (s.dh.length + 1), Splits ord e := by
  unfold readAll
  cases h1 : y.getM "dynamics" with
  | none => exact fun d ord h => by cases h1.symm.trans h.1
  | some d =>
    rw [bind_ok (ofYaml_some _ _)]
    cases h2 : y.getM "Dl_order" with
    | none => exact fun d ord h => by obtain ⟨-, o, ho, -⟩ := h; cases h2.symm.trans ho
    | some o =>
      rw [bind_ok (ofYaml_some _ _)]
      have key : ∀ ord : ℤ, Header y d ord → match forIdx (readLink ord) 0 d.items s with
          | .ok _ _ => ∃ d ord, Header y d ord ∧ d.items.length ≤ s.dh.length ∧ ∀ e ∈ d.items, Splits ord e
          | .yaml _ => ∀ d ord, Header y d ord →
            (∃ e ∈ d.items.take (s.dh.length + 1), ¬ Splits ord e) ∧ ¬ (ord < 0 ∧ ∃ e L, d.items = e :: L ∧ LinkReadable "CoM_" e)
          | .exc _ => ∃ d ord, Header y d ord ∧ ord < 0 ∧ ∃ e L, d.items = e :: L ∧ LinkReadable "CoM_" e
          | .ub => ∃ d ord, Header y d ord ∧ s.dh.length < d.items.length ∧ ∀ e ∈ d.items.take (s.dh.length + 1), Splits ord e := by
        intro ord hH
        have := loop_exact ord d.items 0 s (Nat.zero_le _)
        revert this
        cases forIdx (readLink ord) 0 d.items s with
        | ok b s' => exact fun h => ⟨d, ord, hH, by simpa using h.1, h.2⟩
        | yaml s' =>
          intro h d' ord' hH'
          obtain ⟨rfl, rfl⟩ := Header.unique hH hH'
          exact h
        | exc s' => exact fun h => ⟨d, ord, hH, h⟩
        | ub => exact fun h => ⟨d, ord, hH, by simpa using h.1, h.2⟩
      by_cases hd : o.isDef = true
      · simp only [hd, if_true]
        cases h3 : o.asI with
        | none =>
          intro d' ord' h
          obtain ⟨-, o', ho, h⟩ := h
          obtain rfl := Option.some.inj (h2.symm.trans ho)
          rw [if_pos hd, h3] at h
          cases h
        | some ord =>
          rw [bind_ok (ofYaml_some _ _)]
          exact key ord ⟨h1, o, h2, by rw [if_pos hd]; exact h3⟩
      · simp only [hd, Bool.false_eq_true, if_false]
        rw [bind_ok (pure_run _ _)]
        exact key 0 ⟨h1, o, h2, by rw [if_neg hd]⟩

/-- C66, exactly, for every tree and every number of joints: the function writes outside its vector exactly when there are more entries than joints and those up to
the first beyond the joints can be read; it ends with an exception exactly when the order is negative and the first entry can be read; it writes the files
exactly when all entries can be read and there are no more than joints.  In all other cases it returns 0. -/
theorem C66_iff (n : ℕ) (y : Yaml) (a b : String) :
    (genInertial n (some y) a b start = .ub ↔ ∃ d ord, Header y d ord ∧ n < d.items.length ∧ ∀ e ∈ d.items.take (n + 1), Splits ord e) ∧
    ((∃ s, genInertial n (some y) a b start = .exc s) ↔ ∃ d ord, Header y d ord ∧ ord < 0 ∧ ∃ e L, d.items = e :: L ∧ LinkReadable "CoM_" e) ∧
    ((∃ s, genInertial n (some y) a b start = .ok 1 s) ↔ ∃ d ord, Header y d ord ∧ d.items.length ≤ n ∧ ∀ e ∈ d.items, Splits ord e) := by
  have h := readAll_exact y ⟨List.replicate n blank, List.replicate n blank, []⟩
  simp only [List.length_replicate] at h
  have hneg : ∀ {d ord e L}, Header y d ord → d.items = e :: L → Splits ord e → ord < 0 → False := fun _ _ h h' =>
    h.2.elim (fun h => by omega) fun h => by omega
  rw [genInertial_run]
  unfold tryYaml
  cases hr : readAll y ⟨List.replicate n blank, List.replicate n blank, []⟩ with
  | ok u s' =>
    rw [hr] at h
    rw [bind_ok hr]
    obtain ⟨d, ord, hH, h1, h2⟩ := h
    refine ⟨iff_of_false (by rintro ⟨⟩) fun ⟨d', ord', hH', h3, _⟩ => ?_, iff_of_false (by rintro ⟨_, ⟨⟩⟩) fun ⟨d', ord', hH', h3, e, L, h4, _⟩ => ?_,
      iff_of_true ⟨_, rfl⟩ ⟨d, ord, hH, h1, h2⟩⟩
    · obtain ⟨rfl, rfl⟩ := Header.unique hH hH'
      omega
    · obtain ⟨rfl, rfl⟩ := Header.unique hH hH'
      exact hneg hH h4 (h2 e (h4 ▸ List.mem_cons_self)) h3
  | yaml s' =>
    rw [hr] at h
    rw [bind_yaml hr]
    refine ⟨iff_of_false (by rintro ⟨⟩) fun ⟨d, ord, hH, _, h3⟩ => ?_, iff_of_false (by rintro ⟨_, ⟨⟩⟩) fun ⟨d, ord, hH, h3⟩ => (h d ord hH).2 h3,
      iff_of_false (by rintro ⟨_, h⟩; have := (Res.ok.inj h).1; omega) fun ⟨d, ord, hH, _, h3⟩ => ?_⟩
    · obtain ⟨e, he, hn⟩ := (h d ord hH).1
      exact hn (h3 e he)
    · obtain ⟨e, he, hn⟩ := (h d ord hH).1
      exact hn (h3 e (List.mem_of_mem_take he))
  | exc s' =>
    rw [hr] at h
    rw [bind_exc hr]
    obtain ⟨d, ord, hH, h1, e, L, h2, h3⟩ := h
    refine ⟨iff_of_false (by rintro ⟨⟩) fun ⟨d', ord', hH', _, h4⟩ => ?_, iff_of_true ⟨_, rfl⟩ ⟨d, ord, hH, h1, e, L, h2, h3⟩,
      iff_of_false (by rintro ⟨_, ⟨⟩⟩) fun ⟨d', ord', hH', _, h4⟩ => ?_⟩
    · obtain ⟨rfl, rfl⟩ := Header.unique hH hH'
      exact hneg hH h2 (h4 e (by rw [h2, List.take_succ_cons]; exact List.mem_cons_self)) h1
    · obtain ⟨rfl, rfl⟩ := Header.unique hH hH'
      exact hneg hH h2 (h4 e (h2 ▸ List.mem_cons_self)) h1
  | ub =>
    rw [hr] at h
    rw [bind_ub hr]
    obtain ⟨d, ord, hH, h1, h2⟩ := h
    refine ⟨iff_of_true rfl ⟨d, ord, hH, h1, h2⟩, iff_of_false (by rintro ⟨_, ⟨⟩⟩) fun ⟨d', ord', hH', h3, e, L, h4, _⟩ => ?_,
      iff_of_false (by rintro ⟨_, ⟨⟩⟩) fun ⟨d', ord', hH', h3, _⟩ => ?_⟩
    · obtain ⟨rfl, rfl⟩ := Header.unique hH hH'
      exact hneg hH h4 (h2 e (by rw [h4, List.take_succ_cons]; exact List.mem_cons_self)) h3
    · obtain ⟨rfl, rfl⟩ := Header.unique hH hH'
      omega

namespace Ex

theorem splits_link (name : String) : Splits 0 (some name, link) := by
  refine ⟨⟨Option.some_ne_none _, _, rfl, fun key hk => ?_⟩, .inl rfl⟩
  simp only [List.mem_cons, List.not_mem_nil, or_false] at hk
  rcases hk with rfl | rfl | rfl | rfl | rfl | rfl | rfl | rfl | rfl | rfl <;> exact ⟨some 1, rfl⟩

theorem header_two (a b : String) : Header (twoLinks a b) (.map [(some a, link), (some b, link)]) 0 := ⟨rfl, .undef, rfl, rfl⟩

/-- A file with friction and a negative order. -/
noncomputable def negative : Yaml := .map [(some "Dl_order", .scalar ⟨"-1", some (some (-1)), some (-1), none⟩), (some "dynamics", .map [(some "l", link)])]

/-- The three outcomes with files of two links and one joint, a negative order, and two links and two joints. -/
example (a b : String) : genInertial 1 (some (twoLinks "l1" "l2")) a b start = .ub ∧ (∃ s, genInertial 1 (some negative) a b start = .exc s) ∧
    ∃ s, genInertial 2 (some (twoLinks "l1" "l2")) a b start = .ok 1 s := by
  refine ⟨(C66_iff 1 _ a b).1.2 ⟨_, 0, header_two _ _, by decide, fun e he => ?_⟩, (C66_iff 1 _ a b).2.1.2 ⟨_, -1, ⟨rfl, _, rfl, rfl⟩, by decide, _, _, rfl, (splits_link "l").1⟩,
    (C66_iff 2 _ a b).2.2.2 ⟨_, 0, header_two _ _, by decide, fun e he => ?_⟩⟩
  · have : e = (some "l1", link) ∨ e = (some "l2", link) := by simpa [Yaml.items] using he
    rcases this with rfl | rfl <;> exact splits_link _
  · have : e = (some "l1", link) ∨ e = (some "l2", link) := by simpa [Yaml.items] using he
    rcases this with rfl | rfl <;> exact splits_link _

end Ex

end Thunder.GenYaml
