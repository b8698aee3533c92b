import Verif.Lemmas.WrapperLen

/-!
# Wrapper class: when `load_conf` makes an access outside a vector
-/

namespace Thunder.Wrap

open Spec

theorem pick_none {v : List Num} {fl : List ℤ} {off k : ℕ} : pick v fl off k = none ↔ Beyond v fl off k := by
  unfold pick Beyond
  rw [Option.map_eq_none_iff, ← not_iff_not, ← ne_eq, Option.ne_none_iff_exists', mapM_isSome]
  push Not
  simp only [List.mem_range]
  refine forall₂_congr fun i hi => ?_
  constructor
  · rintro ⟨b, hb⟩
    obtain ⟨x, hx, hb⟩ := Option.bind_eq_some_iff.1 hb
    obtain ⟨hlt, hx'⟩ := List.getElem?_eq_some_iff.1 hx
    refine ⟨hlt, fun h0 => ?_⟩
    rw [List.getD_eq_getElem?_getD, hx, Option.getD_some] at h0
    rw [if_neg h0] at hb
    obtain ⟨a, ha, -⟩ := Option.map_eq_some_iff.1 hb
    exact (List.getElem?_eq_some_iff.1 ha).1
  · rintro ⟨hlt, h⟩
    have hx := List.getElem?_eq_getElem hlt
    rw [List.getD_eq_getElem?_getD, hx, Option.getD_some] at h
    rw [hx, Option.bind_some]
    split
    · exact ⟨_, rfl⟩
    · next h0 => exact ⟨_, by rw [List.getElem?_eq_getElem (h h0)]; rfl⟩

theorem setSeg_none {v xs : List Num} {off : ℕ} : setSeg v off xs = none ↔ v.length < off + xs.length := by
  unfold setSeg
  split <;> simp <;> omega

theorem flags_whole {nd : Yaml} {old fl : List ℤ} {f : SField} (hv : ∀ key ∈ sectionKeys f, HasVec nd key) (h : FlagsOf nd old fl) : Whole f nd :=
  ⟨hv, flags_old h⟩

/-- A section overruns. -/
def SecOver (c : Cfg) (y : Yaml) (f : SField) (s : Obj) : Prop :=
  ∃ nd fl, Has y f nd ∧ Whole f nd ∧ FlagsOf nd (s.symb f) fl ∧ Overruns c.n f nd fl

theorem beyond_self {v : List Num} {fl : List ℤ} : Beyond v fl 0 v.length ↔ fl.length < v.length := by
  unfold Beyond
  constructor
  · rintro ⟨i, hi, h | ⟨-, h⟩⟩ <;> omega
  · intro h
    exact ⟨fl.length, h, Or.inl (by omega)⟩

theorem ub_kin (c : Cfg) (y : Yaml) (s : Obj) : loadKin c y s = .ub ↔ SecOver c y .DH s := by
  unfold loadKin
  cases hk : y.getM "kinematics" with
  | none =>
    refine ⟨fun h => (by cases h), fun ⟨nd, _, h, _⟩ => ?_⟩
    have := h.1
    rw [show sectionName .DH = "kinematics" from rfl, hk] at this
    cases this
  | some kin =>
    simp only [yaml]
    have uniq : ∀ {nd}, Has y .DH nd → nd = kin := fun h => Option.some.inj (h.1.symm.trans hk)
    by_cases hd : kin.isDef = true
    · have hh : Has y .DH kin := ⟨hk, hd⟩
      rw [if_pos hd]
      cases hdh : (kin.getM "DH").bind (Yaml.asVec Yaml.asD) with
      | none =>
        refine ⟨fun h => (by cases h), fun ⟨nd, _, h, hw, _⟩ => ?_⟩
        rw [uniq h] at hw
        obtain ⟨v, hv⟩ := hw.1 "DH" (by simp [sectionKeys])
        rw [hdh] at hv
        cases hv
      | some dh =>
        simp only
        have hv : ∀ key ∈ sectionKeys .DH, HasVec kin key := fun key hkey => by
          simp only [sectionKeys, List.mem_singleton] at hkey
          subst hkey
          exact ⟨dh, hdh⟩
        rcases readSymb_cases (nd := kin) (f := .DH) (s := s.set .DH (resize (s.vec .DH) (c.n * 4))) (k := fun s =>
          must (pick dh (s.symb .DH) 0 dh.length) fun sel => must (setSeg (s.vec .DH) 0 sel) fun v =>
            .ok (s.set .DH (conservativeResize v sel.length))) with ⟨e, hno⟩ | ⟨fl, s1, hfl, e, hvec, hsy, hsyo⟩
        · rw [e]
          refine ⟨fun h => (by cases h), fun ⟨nd, _, h, hw, _⟩ => ?_⟩
          rw [uniq h] at hw
          exact absurd hw.2 hno
        · rw [e]
          have hfl : FlagsOf kin (s.symb .DH) fl := hfl
          have hlen : (s1.vec .DH).length = c.n * 4 := by rw [hvec, set_vec_same]; exact length_resize _ _
          have goal : SecOver c y .DH s ↔ (fl.length < dh.length ∨ 4 * c.n < reads (fl.take dh.length)) := by
            constructor
            · rintro ⟨nd, fl', h, -, h', v, hv', ho⟩
              rw [uniq h] at h' hv'
              rw [flags_unique h' hfl] at ho
              cases hdh.symm.trans hv'
              exact ho
            · exact fun ho => ⟨kin, fl, hh, flags_whole hv hfl, hfl, dh, hdh, ho⟩
          rw [goal, hsy]
          cases hp : pick dh fl 0 dh.length with
          | none => exact ⟨fun _ => Or.inl (beyond_self.1 (pick_none.1 hp)), fun _ => rfl⟩
          | some r =>
            simp only [must]
            have hcount := pick_count hp
            rw [List.drop_zero] at hcount
            have hnb : ¬ fl.length < dh.length := fun h => by
              rw [pick_none.2 (beyond_self.2 h)] at hp
              cases hp
            cases hs : setSeg (s1.vec .DH) 0 r with
            | none =>
              have := setSeg_none.1 hs
              exact ⟨fun _ => Or.inr (by omega), fun _ => rfl⟩
            | some v =>
              refine ⟨fun h => (by cases h), fun h => ?_⟩
              have : setSeg (s1.vec .DH) 0 r = none := setSeg_none.2 (by omega)
              rw [hs] at this
              cases this
    · rw [if_neg hd]
      refine ⟨fun h => (by cases h), fun ⟨nd, _, h, _⟩ => ?_⟩
      exact absurd (uniq h ▸ h.2) hd

theorem reads_take_le (fl : List ℤ) (k : ℕ) : reads (fl.take k) ≤ k := (reads_le _).trans (by simp)

theorem ub_frame (c : Cfg) {name : String} {sf : SField} (hname : sectionName sf = name) (hkeys : sectionKeys sf = ["tr", "ypr"])
    (hov : ∀ nd fl, Overruns c.n sf nd fl ↔ ∃ a b, (nd.getM "tr").bind (Yaml.asVec Yaml.asD) = some a ∧
      (nd.getM "ypr").bind (Yaml.asVec Yaml.asD) = some b ∧ (Beyond a fl 0 3 ∨ Beyond b fl 3 3)) (y : Yaml) (s : Obj) :
    loadFrame name sf.field sf y s = .ub ↔ SecOver c y sf s := by
  unfold loadFrame
  cases hk : y.getM name with
  | none =>
    refine ⟨fun h => (by cases h), fun ⟨nd, _, h, _⟩ => ?_⟩
    have := h.1
    rw [hname, hk] at this
    cases this
  | some fr =>
    simp only [yaml]
    have uniq : ∀ {nd}, Has y sf nd → nd = fr := fun h => Option.some.inj (h.1.symm.trans (by rw [hname]; exact hk))
    by_cases hd : fr.isDef = true
    · have hh : Has y sf fr := ⟨by rw [hname]; exact hk, hd⟩
      rw [if_pos hd]
      rcases readSymb_cases (nd := fr) (f := sf) (s := s.set sf.field (resize (s.vec sf.field) 6)) (k := fun s =>
        yaml ((fr.getM "tr").bind (Yaml.asVec Yaml.asD)) s fun tr =>
        yaml ((fr.getM "ypr").bind (Yaml.asVec Yaml.asD)) s fun ypr =>
        must (pick tr (s.symb sf) 0 3) fun a =>
        must (pick ypr (s.symb sf) 3 3) fun b =>
        must (setSeg (s.vec sf.field) 0 (a ++ b)) fun v =>
        .ok (s.set sf.field (conservativeResize v (a ++ b).length))) with ⟨e, hno⟩ | ⟨fl, s1, hfl, e, hvec, hsy, hsyo⟩
      · simp only [yaml] at e
        rw [e]
        refine ⟨fun h => (by cases h), fun ⟨nd, _, h, hw, _⟩ => ?_⟩
        rw [uniq h] at hw
        exact absurd hw.2 hno
      · simp only [yaml] at e
        rw [e]
        have hfl : FlagsOf fr (s.symb sf) fl := hfl
        have hlen : (s1.vec sf.field).length = 6 := by rw [hvec, set_vec_same, length_resize]
        cases htr : (fr.getM "tr").bind (Yaml.asVec Yaml.asD) with
        | none =>
          refine ⟨fun h => (by cases h), fun ⟨nd, _, h, hw, _⟩ => ?_⟩
          rw [uniq h] at hw
          obtain ⟨v, hv⟩ := hw.1 "tr" (by simp [hkeys])
          rw [htr] at hv
          cases hv
        | some tr =>
          cases hypr : (fr.getM "ypr").bind (Yaml.asVec Yaml.asD) with
          | none =>
            refine ⟨fun h => (by cases h), fun ⟨nd, _, h, hw, _⟩ => ?_⟩
            rw [uniq h] at hw
            obtain ⟨v, hv⟩ := hw.1 "ypr" (by simp [hkeys])
            rw [hypr] at hv
            cases hv
          | some ypr =>
            simp only
            have hv : ∀ key ∈ sectionKeys sf, HasVec fr key := fun key hkey => by
              simp only [hkeys, List.mem_cons, List.not_mem_nil, or_false] at hkey
              rcases hkey with rfl | rfl
              · exact ⟨tr, htr⟩
              · exact ⟨ypr, hypr⟩
            have goal : SecOver c y sf s ↔ (Beyond tr fl 0 3 ∨ Beyond ypr fl 3 3) := by
              constructor
              · rintro ⟨nd, fl', h, -, h', ho⟩
                rw [uniq h] at h' ho
                rw [flags_unique h' hfl] at ho
                obtain ⟨a, b, ha, hb, ho⟩ := (hov _ _).1 ho
                cases htr.symm.trans ha
                cases hypr.symm.trans hb
                exact ho
              · exact fun ho => ⟨fr, fl, hh, flags_whole hv hfl, hfl, (hov _ _).2 ⟨tr, ypr, htr, hypr, ho⟩⟩
            rw [goal, hsy]
            cases ha : pick tr fl 0 3 with
            | none => exact ⟨fun _ => Or.inl (pick_none.1 ha), fun _ => rfl⟩
            | some a =>
              have hna : ¬ Beyond tr fl 0 3 := fun h => by rw [pick_none.2 h] at ha; cases ha
              cases hb : pick ypr fl 3 3 with
              | none => exact ⟨fun _ => Or.inr (pick_none.1 hb), fun _ => rfl⟩
              | some b =>
                have hnb : ¬ Beyond ypr fl 3 3 := fun h => by rw [pick_none.2 h] at hb; cases hb
                simp only [must]
                have h1 := pick_count ha
                have h2 := pick_count hb
                have h3 := reads_take_le (fl.drop 0) 3
                have h4 := reads_take_le (fl.drop 3) 3
                rw [setSeg_some (by rw [List.length_append, hlen]; omega)]
                exact ⟨fun h => (by cases h), fun h => h.elim (fun h => absurd h hna) fun h => absurd h hnb⟩
    · rw [if_neg hd]
      refine ⟨fun h => (by cases h), fun ⟨nd, _, h, _⟩ => ?_⟩
      exact absurd (uniq h ▸ h.2) hd

theorem ub_grav (c : Cfg) (y : Yaml) (s : Obj) : loadGrav y s = .ub ↔ SecOver c y .G s := by
  unfold loadGrav
  cases hk : y.getM "gravity" with
  | none =>
    refine ⟨fun h => (by cases h), fun ⟨nd, _, h, _⟩ => ?_⟩
    have := h.1
    rw [show sectionName .G = "gravity" from rfl, hk] at this
    cases this
  | some gr =>
    simp only [yaml]
    have uniq : ∀ {nd}, Has y .G nd → nd = gr := fun h => Option.some.inj (h.1.symm.trans hk)
    by_cases hd : gr.isDef = true
    · have hh : Has y .G gr := ⟨hk, hd⟩
      rw [if_pos hd]
      rcases readSymb_cases (nd := gr) (f := .G) (s := s.set .G (resize (s.vec .G) 3)) (k := fun s =>
        yaml ((gr.getM "value").bind (Yaml.asVec Yaml.asD)) s fun g =>
        must (pick g (s.symb .G) 0 3) fun sel =>
        must (setSeg (s.vec .G) 0 sel) fun v =>
        .ok (s.set .G (conservativeResize v sel.length))) with ⟨e, hno⟩ | ⟨fl, s1, hfl, e, hvec, hsy, hsyo⟩
      · simp only [yaml] at e
        rw [e]
        refine ⟨fun h => (by cases h), fun ⟨nd, _, h, hw, _⟩ => ?_⟩
        rw [uniq h] at hw
        exact absurd hw.2 hno
      · simp only [yaml] at e
        rw [e]
        have hfl : FlagsOf gr (s.symb .G) fl := hfl
        have hlen : (s1.vec .G).length = 3 := by rw [hvec, set_vec_same]; exact length_resize _ _
        cases hval : (gr.getM "value").bind (Yaml.asVec Yaml.asD) with
        | none =>
          refine ⟨fun h => (by cases h), fun ⟨nd, _, h, hw, _⟩ => ?_⟩
          rw [uniq h] at hw
          obtain ⟨v, hv⟩ := hw.1 "value" (by simp [sectionKeys])
          rw [hval] at hv
          cases hv
        | some g =>
          simp only
          have hv : ∀ key ∈ sectionKeys .G, HasVec gr key := fun key hkey => by
            simp only [sectionKeys, List.mem_singleton] at hkey
            subst hkey
            exact ⟨g, hval⟩
          have goal : SecOver c y .G s ↔ Beyond g fl 0 3 := by
            constructor
            · rintro ⟨nd, fl', h, -, h', v, hv', ho⟩
              rw [uniq h] at h' hv'
              rw [flags_unique h' hfl] at ho
              cases hval.symm.trans hv'
              exact ho
            · exact fun ho => ⟨gr, fl, hh, flags_whole hv hfl, hfl, g, hval, ho⟩
          rw [goal, hsy]
          cases ha : pick g fl 0 3 with
          | none => exact ⟨fun _ => pick_none.1 ha, fun _ => rfl⟩
          | some a =>
            have hna : ¬ Beyond g fl 0 3 := fun h => by rw [pick_none.2 h] at ha; cases ha
            simp only [must]
            have h1 := pick_count ha
            have h3 := reads_take_le (fl.drop 0) 3
            rw [setSeg_some (by rw [hlen]; omega)]
            exact ⟨fun h => (by cases h), fun h => absurd h hna⟩
    · rw [if_neg hd]
      refine ⟨fun h => (by cases h), fun ⟨nd, _, h, _⟩ => ?_⟩
      exact absurd (uniq h ▸ h.2) hd

/-! ## The two loops -/

theorem firstOf_cons {α : Type} {A B : α → Prop} {a : α} {l : List α} : FirstOf A B (a :: l) ↔ B a ∨ A a ∧ FirstOf A B l := by
  constructor
  · rintro ⟨pre, e, post, h, hA, hB⟩
    cases pre with
    | nil => cases h; exact Or.inl hB
    | cons p pre =>
      cases h
      exact Or.inr ⟨hA _ List.mem_cons_self, pre, e, post, rfl, fun x hx => hA x (List.mem_cons_of_mem _ hx), hB⟩
  · rintro (h | ⟨h, pre, e, post, rfl, hA, hB⟩)
    · exact ⟨[], a, l, rfl, by simp, h⟩
    · refine ⟨a :: pre, e, post, rfl, fun x hx => ?_, hB⟩
      rcases List.mem_cons.1 hx with rfl | hx
      · exact h
      · exact hA x hx

theorem firstOf_nil {α : Type} {A B : α → Prop} : ¬ FirstOf A B ([] : List α) := by
  rintro ⟨pre, e, post, h, -⟩
  cases pre <;> cases h

theorem writeOrd_none {ord i m : ℕ} (hi : i < m) {xs v : List Num} (hv : v.length = ord * m) : writeOrd ord i xs v = none ↔ xs.length < ord := by
  have hfit : ord * i + ord ≤ ord * m := by rw [← Nat.mul_succ]; exact Nat.mul_le_mul_left _ (by omega)
  unfold writeOrd
  split
  · next h => simp [h]
  · next h => rw [setSeg_some (by rw [List.length_take]; omega)]; simp [h]

theorem ub_dynLoop {c : Cfg} : ∀ (l : List (Option String × Yaml)) (i : ℕ) (s : Obj), Sized c s → i ≤ c.n →
    (dynLoop c l i s = .ub ↔ FirstOf LinkPasses (LinkShort c.dlOrd) (l.take (c.n - i)))
  | [], _, _, _, _ => by simp [dynLoop, firstOf_nil]
  | (key, nd) :: rest, i, s, h, hi => by
    unfold dynLoop
    by_cases hn : i = c.n
    · rw [if_pos hn, hn, Nat.sub_self, List.take_zero]
      exact ⟨fun h => (by cases h), fun h => absurd h firstOf_nil⟩
    · rw [if_neg hn]
      obtain ⟨m, hm⟩ : ∃ m, c.n - i = m + 1 := ⟨c.n - i - 1, by omega⟩
      rw [hm, List.take_succ_cons, firstOf_cons, show m = c.n - (i + 1) by omega]
      have stuck : ¬ LinkPasses (key, nd) → ∀ s' : Obj, (Out.exc s' = .ub ↔ LinkShort c.dlOrd (key, nd) ∨ LinkPasses (key, nd) ∧
          FirstOf LinkPasses (LinkShort c.dlOrd) (rest.take (c.n - (i + 1)))) := fun hx s' =>
        ⟨fun h => (by cases h), fun h => h.elim (fun h => absurd h.1 hx) fun h => absurd h.1 hx⟩
      have hpass := readDynLink_iff.trans (linkPasses_iff (e := (key, nd))).symm
      cases h1 : nd.getC "inertial" with
      | none =>
        refine stuck (fun h => ?_) s
        obtain ⟨_, ⟨i, hi', _⟩, _⟩ := h
        rw [h1] at hi'; cases hi'
      | some inertial =>
        cases key with
        | none => exact stuck (fun h => h.1 rfl) s
        | some key =>
          cases h2 : readInertial "CoM_" inertial with
          | none =>
            simp only [yaml, h2]
            refine stuck (fun h => ?_) s
            obtain ⟨_, ⟨i, hi', hx⟩, _⟩ := h
            cases h1.symm.trans hi'
            obtain ⟨p, hp⟩ := readInertial_iff (com := "CoM_").2 hx
            rw [h2] at hp; cases hp
          | some p =>
            simp only [yaml, h2]
            have hd : (s.vec .DYN).length = 10 * c.n := h .DYN id
            have hlen := length_readInertial h2
            rw [setSeg_some (by omega), must]
            have h' : Sized c (s.set .DYN (splice (s.vec .DYN) (10 * i) p)) := h.set' (length_splice (by omega))
            have hin : ∃ i, nd.getC "inertial" = some i ∧
                ∀ key ∈ ["mass", "CoM_x", "CoM_y", "CoM_z", "Ixx", "Ixy", "Ixz", "Iyy", "Iyz", "Izz"], ∃ x, (i.getM key).bind Yaml.asD = some x :=
              ⟨inertial, h1, readInertial_iff (com := "CoM_").1 ⟨p, h2⟩⟩
            cases h4 : nd.getC "friction" with
            | none =>
              refine stuck (fun h => ?_) _
              obtain ⟨_, _, fr, hfr, _⟩ := h
              rw [h4] at hfr; cases hfr
            | some fr =>
              simp only
              by_cases hdf : fr.isDef = true
              · rw [if_pos hdf]
                cases h5 : (fr.getC "Dl").bind (Yaml.asVec Yaml.asD) with
                | none =>
                  refine stuck (fun h => ?_) _
                  obtain ⟨_, _, fr', hfr, hx⟩ := h
                  cases h4.symm.trans hfr
                  obtain ⟨dl, hdl⟩ := hx hdf
                  rw [h5] at hdl; cases hdl
                | some dl =>
                  simp only
                  have hp : LinkPasses (some key, nd) := ⟨Option.some_ne_none _, hin, fr, h4, fun _ => ⟨dl, h5⟩⟩
                  have hshort : LinkShort c.dlOrd (some key, nd) ↔ dl.length < c.dlOrd := by
                    constructor
                    · rintro ⟨-, fr', hfr, -, v, hv, hlt⟩
                      cases h4.symm.trans hfr
                      cases h5.symm.trans hv
                      exact hlt
                    · exact fun hlt => ⟨hp, fr, h4, hdf, dl, h5, hlt⟩
                  have hw := writeOrd_none (xs := dl) (show i < c.n by omega) (h' .Dl id)
                  rw [hshort, ← hw]
                  cases h6 : writeOrd c.dlOrd i dl ((s.set .DYN (splice (s.vec .DYN) (10 * i) p)).vec .Dl) with
                  | none => simp [must]
                  | some w =>
                    simp only [must, reduceCtorEq, false_or]
                    rw [ub_dynLoop rest (i + 1) _ (h'.set' ?_) (by omega)]
                    · exact ⟨fun h => ⟨hp, h⟩, fun h => h.2⟩
                    · unfold writeOrd at h6
                      split at h6
                      · cases h6
                      · exact length_setSeg h6
              · rw [if_neg hdf, ub_dynLoop rest (i + 1) _ h' (by omega)]
                have hp : LinkPasses (some key, nd) := ⟨Option.some_ne_none _, hin, fr, h4, fun h => absurd h hdf⟩
                refine ⟨fun h => Or.inr ⟨hp, h⟩, fun h => h.elim (fun ⟨_, fr', hfr, hx, _⟩ => ?_) fun h => h.2⟩
                cases h4.symm.trans hfr
                exact absurd hx hdf

theorem sized_writeOrd {ord i : ℕ} {xs v w : List Num} (h : writeOrd ord i xs v = some w) : w.length = v.length := by
  unfold writeOrd at h
  split at h
  · cases h
  · exact length_setSeg h

/-- One vector of coefficients of a motor. -/
theorem ub_readOrd {c : Cfg} {ord i m : ℕ} (hi : i < m) {key : String} {f : Field} (hf : ¬ f.Compacted) (hfs : c.size f = ord * m) {nd : Yaml} {s : Obj}
    {k : Obj → Out} (h : Sized c s) {P : Prop} (hk : ∀ s', Sized c s' → (k s' = .ub ↔ P)) :
    readOrd ord i key f nd s k = .ub ↔ Short nd key ord ∨ CanRead nd key ord ∧ P := by
  unfold readOrd
  by_cases h0 : ord = 0
  · rw [if_pos h0, hk s h]
    exact ⟨fun h => Or.inr ⟨Or.inl h0, h⟩, fun h => h.elim (fun ⟨v, _, hv⟩ => absurd hv (by omega)) fun h => h.2⟩
  · rw [if_neg h0]
    cases h1 : (nd.getC key).bind (Yaml.asVec Yaml.asD) with
    | none =>
      refine ⟨fun h => (by cases h), fun h => ?_⟩
      rcases h with ⟨v, hv, -⟩ | ⟨h | ⟨v, hv⟩, -⟩
      · rw [h1] at hv; cases hv
      · exact absurd h h0
      · rw [h1] at hv; cases hv
    | some xs =>
      simp only [yaml]
      have hw := writeOrd_none (xs := xs) hi ((h f hf).trans hfs)
      have hshort : Short nd key ord ↔ xs.length < ord :=
        ⟨fun ⟨v, hv, hlt⟩ => by cases h1.symm.trans hv; exact hlt, fun hlt => ⟨xs, h1, hlt⟩⟩
      rw [hshort, ← hw]
      cases h2 : writeOrd ord i xs (s.vec f) with
      | none => simp [must]
      | some w =>
        simp only [must, reduceCtorEq, false_or]
        rw [hk _ (h.set' (sized_writeOrd h2))]
        exact ⟨fun h => ⟨Or.inr ⟨xs, h1⟩, h⟩, fun h => h.2⟩

theorem ub_elaLoop {c : Cfg} : ∀ (l : List (Option String × Yaml)) (i : ℕ) (s : Obj), Sized c s → i ≤ c.ne →
    (elaLoop c l i s = .ub ↔ FirstOf (JointPasses c) (JointShort c) (l.take (c.ne - i)))
  | [], _, _, _, _ => by simp [elaLoop, firstOf_nil]
  | (key, nd) :: rest, i, s, h, hi => by
    unfold elaLoop
    by_cases hn : i = c.ne
    · rw [if_pos hn, hn, Nat.sub_self, List.take_zero]
      exact ⟨fun h => (by cases h), fun h => absurd h firstOf_nil⟩
    · rw [if_neg hn]
      obtain ⟨m, hm⟩ : ∃ m, c.ne - i = m + 1 := ⟨c.ne - i - 1, by omega⟩
      rw [hm, List.take_succ_cons, firstOf_cons, show m = c.ne - (i + 1) by omega]
      have hi' : i < c.ne := by omega
      cases key with
      | none => exact ⟨fun h => (by cases h), fun h => h.elim (fun h => absurd rfl h.1) fun h => absurd rfl h.1.1⟩
      | some key =>
        have last : ∀ s', Sized c s' → ((yaml ((nd.getC "Mm").bind Yaml.asD) s' fun m =>
            must (setSeg (s'.vec .Mm) i [m]) fun v => elaLoop c rest (i + 1) (s'.set .Mm v)) = .ub ↔ (∃ x, (nd.getC "Mm").bind Yaml.asD = some x) ∧
              FirstOf (JointPasses c) (JointShort c) (rest.take (c.ne - (i + 1)))) := by
          intro s' h'
          cases h1 : (nd.getC "Mm").bind Yaml.asD with
          | none => exact ⟨fun h => (by cases h), fun ⟨⟨x, hx⟩, _⟩ => (by cases hx)⟩
          | some x =>
            have hm : (s'.vec .Mm).length = c.ne := h' .Mm id
            simp only [yaml]
            rw [setSeg_some (by simp; omega), must, ub_elaLoop rest (i + 1) _ (h'.set' (length_splice (by simp; omega))) (by omega)]
            exact ⟨fun h => ⟨⟨x, rfl⟩, h⟩, fun h => h.2⟩
        refine (ub_readOrd hi' (key := "K") (f := .K) (nd := nd) id rfl h fun s1 h1 => ub_readOrd hi' (key := "D") (f := .D) (nd := nd) id rfl h1
          fun s2 h2 => ub_readOrd hi' (key := "Dm") (f := .Dm) (nd := nd) id rfl h2 fun s3 h3 => last s3 h3).trans ?_
        unfold JointShort JointPasses
        simp only [ne_eq, Option.some_ne_none, not_false_eq_true, true_and]
        tauto

theorem ub_dyn (c : Cfg) (u : Bool) (y : Yaml) {s : Obj} (h : Sized c s) : loadDyn c u y s = .ub ↔ ∃ nd, y.getM "dynamics" = some nd ∧ nd.isDef = true ∧
    FirstOf LinkPasses (LinkShort c.dlOrd) (nd.items.take c.n) := by
  unfold loadDyn
  cases hk : y.getM "dynamics" with
  | none => exact ⟨fun h => (by cases h), fun ⟨_, h, _⟩ => (by cases h)⟩
  | some dyn =>
    simp only [yaml]
    by_cases hd : dyn.isDef = true
    · rw [if_pos hd]
      have hub := ub_dynLoop dyn.items 0 s h (Nat.zero_le _)
      rw [Nat.sub_zero] at hub
      have : (∃ nd, some dyn = some nd ∧ nd.isDef = true ∧ FirstOf LinkPasses (LinkShort c.dlOrd) (nd.items.take c.n)) ↔
          FirstOf LinkPasses (LinkShort c.dlOrd) (dyn.items.take c.n) :=
        ⟨fun ⟨nd, h1, _, h2⟩ => by cases h1; exact h2, fun h => ⟨dyn, rfl, hd, h⟩⟩
      rw [this, ← hub]
      have hsz := sized_dynLoop (c := c) dyn.items 0 s h
      cases ho : dynLoop c dyn.items 0 s with
      | ok s1 =>
        rw [ho] at hsz
        simp only [Out.bind]
        cases u with
        | false => simp
        | true => rw [if_pos rfl, updateREG_eq hsz]; simp
      | exc s1 => simp [Out.bind]
      | ub => simp [Out.bind]
    · rw [if_neg hd]
      exact ⟨fun h => (by cases h), fun ⟨_, h1, h2, _⟩ => (by cases h1; exact absurd h2 hd)⟩

theorem ub_ela (c : Cfg) (y : Yaml) {s : Obj} (h : Sized c s) : loadEla c y s = .ub ↔ ∃ nd js, y.getM "elastic" = some nd ∧ nd.isDef = true ∧
    nd.getM "joints" = some js ∧ FirstOf (JointPasses c) (JointShort c) (js.items.take c.ne) := by
  unfold loadEla
  cases hk : y.getM "elastic" with
  | none => exact ⟨fun h => (by cases h), fun ⟨_, _, h, _⟩ => (by cases h)⟩
  | some el =>
    simp only [yaml]
    by_cases hd : el.isDef = true
    · rw [if_pos hd]
      cases hj : el.getM "joints" with
      | none => exact ⟨fun h => (by cases h), fun ⟨_, _, h1, _, h2, _⟩ => (by cases h1; rw [hj] at h2; cases h2)⟩
      | some js =>
        have hub := ub_elaLoop js.items 0 s h (Nat.zero_le _)
        rw [Nat.sub_zero] at hub
        simp only
        rw [hub]
        exact ⟨fun h => ⟨el, js, rfl, hd, hj, h⟩, fun ⟨_, _, h1, _, h2, h3⟩ => (by cases h1; cases hj.symm.trans h2; exact h3)⟩
    · rw [if_neg hd]
      exact ⟨fun h => (by cases h), fun ⟨_, _, h1, h2, _⟩ => (by cases h1; exact absurd h2 hd)⟩

theorem ub_load (c : Cfg) (u : Bool) (y : Yaml) {s : Obj} (h : Sized c s) : loadBody c u y s = .ub ↔ LoadOverruns c s.symb y := by
  have hdef : LoadOverruns c s.symb y ↔ SecOver c y .DH s ∨ (Passes y .DH ∧ (SecOver c y .W2L s ∨ (Passes y .W2L ∧ (SecOver c y .EE s ∨ (Passes y .EE ∧
      ((∃ nd, y.getM "dynamics" = some nd ∧ nd.isDef = true ∧ FirstOf LinkPasses (LinkShort c.dlOrd) (nd.items.take c.n)) ∨ (LinksPass c.n y ∧
      (SecOver c y .G s ∨ (Passes y .G ∧ ∃ nd js, y.getM "elastic" = some nd ∧ nd.isDef = true ∧
    nd.getM "joints" = some js ∧ FirstOf (JointPasses c) (JointShort c) (js.items.take c.ne)))))))))) := by
    unfold LoadOverruns
    constructor
    · rintro (⟨f, nd, fl, hr, ho⟩ | ⟨h1, h2, h3, h4⟩ | ⟨⟨h1, h2, h3, h4⟩, h5, h6⟩)
      · cases f with
        | DH => exact Or.inl ⟨nd, fl, ho⟩
        | W2L => exact Or.inr ⟨hr, Or.inl ⟨nd, fl, ho⟩⟩
        | EE => exact Or.inr ⟨hr.1, Or.inr ⟨hr.2, Or.inl ⟨nd, fl, ho⟩⟩⟩
        | G => exact Or.inr ⟨hr.1, Or.inr ⟨hr.2.1, Or.inr ⟨hr.2.2.1, Or.inr ⟨hr.2.2.2, Or.inl ⟨nd, fl, ho⟩⟩⟩⟩⟩
      · exact Or.inr ⟨h1, Or.inr ⟨h2, Or.inr ⟨h3, Or.inl h4⟩⟩⟩
      · exact Or.inr ⟨h1, Or.inr ⟨h2, Or.inr ⟨h3, Or.inr ⟨h4, Or.inr ⟨h5, h6⟩⟩⟩⟩⟩
    · rintro (⟨nd, fl, ho⟩ | ⟨h1, ⟨nd, fl, ho⟩ | ⟨h2, ⟨nd, fl, ho⟩ | ⟨h3, h4 | ⟨h4, ⟨nd, fl, ho⟩ | ⟨h5, h6⟩⟩⟩⟩⟩)
      · exact Or.inl ⟨.DH, nd, fl, trivial, ho⟩
      · exact Or.inl ⟨.W2L, nd, fl, h1, ho⟩
      · exact Or.inl ⟨.EE, nd, fl, ⟨h1, h2⟩, ho⟩
      · exact Or.inr (Or.inl ⟨h1, h2, h3, h4⟩)
      · exact Or.inl ⟨.G, nd, fl, ⟨h1, h2, h3, h4⟩, ho⟩
      · exact Or.inr (Or.inr ⟨⟨h1, h2, h3, h4⟩, h5, h6⟩)
  rw [hdef]
  -- the flags of a section are those of the state before the call
  have secover : ∀ {f : SField} {a b : Obj}, a.symb f = b.symb f → (SecOver c y f a ↔ SecOver c y f b) := fun e => by unfold SecOver; rw [e]
  unfold loadBody
  have u1 := ub_kin c y s
  have k1 := sec_kin c y s
  have z1 := sized_loadKin (c := c) (y := y) h
  revert u1 k1 z1
  cases loadKin c y s with
  | ub => exact fun u1 _ _ => ⟨fun _ => Or.inl (u1.1 rfl), fun _ => rfl⟩
  | exc s1 => exact fun u1 k1 _ => ⟨fun h => (by cases h), fun h => h.elim (fun h => absurd (u1.2 h) (by simp)) fun h => absurd h.1 k1.1⟩
  | ok s1 =>
    rintro u1 ⟨n1, e1⟩ z1
    have v1 : ¬ SecOver c y .DH s := fun h => absurd (u1.2 h) (by simp)
    simp only [Out.bind, v1, n1, false_or, true_and]
    have u2 := ub_frame c (name := "Base_to_L0") (sf := .W2L) rfl rfl (fun _ _ => Iff.rfl) y s1
    have k2 := sec_frame c (name := "Base_to_L0") (sf := .W2L) rfl rfl rfl (fun _ _ h => h) y s1
    have z2 := sized_loadFrame (c := c) (name := "Base_to_L0") (f := .W2L) (sf := .W2L) (y := y) trivial (h := z1)
    rw [secover (e1.other (by decide)).2] at u2
    revert u2 k2 z2
    rw [show SField.field .W2L = Field.W2L from rfl]
    cases loadFrame "Base_to_L0" .W2L .W2L y s1 with
    | ub => exact fun u2 _ _ => ⟨fun _ => Or.inl (u2.1 rfl), fun _ => rfl⟩
    | exc s2 => exact fun u2 k2 _ => ⟨fun h => (by cases h), fun h => h.elim (fun h => absurd (u2.2 h) (by simp)) fun h => absurd h.1 k2.1⟩
    | ok s2 =>
      rintro u2 ⟨n2, e2⟩ z2
      have v2 : ¬ SecOver c y .W2L s := fun h => absurd (u2.2 h) (by simp)
      simp only [v2, n2, false_or, true_and]
      have u3 := ub_frame c (name := "Ln_to_EE") (sf := .EE) rfl rfl (fun _ _ => Iff.rfl) y s2
      have k3 := sec_frame c (name := "Ln_to_EE") (sf := .EE) rfl rfl rfl (fun _ _ h => h) y s2
      have z3 := sized_loadFrame (c := c) (name := "Ln_to_EE") (f := .EE) (sf := .EE) (y := y) trivial (h := z2)
      rw [secover (chain (e2.other (g := .EE) (by decide)) (e1.other (by decide))).2] at u3
      revert u3 k3 z3
      rw [show SField.field .EE = Field.EE from rfl]
      cases loadFrame "Ln_to_EE" .EE .EE y s2 with
      | ub => exact fun u3 _ _ => ⟨fun _ => Or.inl (u3.1 rfl), fun _ => rfl⟩
      | exc s3 => exact fun u3 k3 _ => ⟨fun h => (by cases h), fun h => h.elim (fun h => absurd (u3.2 h) (by simp)) fun h => absurd h.1 k3.1⟩
      | ok s3 =>
        rintro u3 ⟨n3, e3⟩ z3
        have v3 : ¬ SecOver c y .EE s := fun h => absurd (u3.2 h) (by simp)
        simp only [v3, n3, false_or, true_and]
        have u4 := ub_dyn c u y (s := s3) z3
        have k4 := dyn_out c u y s3
        have z4 := sized_loadDyn (c := c) (upd := u) (y := y) (h := z3)
        rw [← u4]
        revert k4 z4
        cases loadDyn c u y s3 with
        | ub => exact fun _ _ => ⟨fun _ => Or.inl rfl, fun _ => rfl⟩
        | exc s4 => exact fun k4 _ => ⟨fun h => (by cases h), fun h => h.elim (fun h => (by cases h)) fun h => absurd h.1 k4.1⟩
        | ok s4 =>
          rintro ⟨n4, e4⟩ z4
          simp only [reduceCtorEq, n4, false_or, true_and]
          have u5 := ub_grav c y s4
          have k5 := sec_grav c y s4
          have z5 := sized_loadGrav (c := c) (y := y) (h := z4)
          rw [secover (chain (e4 .G) (chain (e3.other (g := .G) (by decide)) (chain (e2.other (g := .G) (by decide)) (e1.other (by decide))))).2] at u5
          revert u5 k5 z5
          cases loadGrav y s4 with
          | ub => exact fun u5 _ _ => ⟨fun _ => Or.inl (u5.1 rfl), fun _ => rfl⟩
          | exc s5 => exact fun u5 k5 _ => ⟨fun h => (by cases h), fun h => h.elim (fun h => absurd (u5.2 h) (by simp)) fun h => absurd h.1 k5.1⟩
          | ok s5 =>
            rintro u5 ⟨n5, -⟩ z5
            have v5 : ¬ SecOver c y .G s := fun h => absurd (u5.2 h) (by simp)
            simp only [v5, n5, false_or, true_and]
            exact ub_ela c y z5

theorem safe_reg {c : Cfg} : ∀ (l : List (Option String × Yaml)) (i : ℕ) (s : Obj), i ≤ c.n → Sized c s → (regLoop c l i s).Safe (Sized c)
  | [], _, _, _, h => h
  | (key, nd) :: rest, i, s, hi, h => by
    unfold regLoop
    by_cases hn : i = c.n
    · rw [if_pos hn]; exact h
    · rw [if_neg hn]
      refine safe_yaml h fun inertial _ => safe_yaml h fun _ _ => safe_yaml h fun p hp' => ?_
      have hd : (s.vec .REG).length = 10 * c.n := h .REG id
      have hlen := length_readInertial hp'
      refine safe_must (setSeg_some (by omega)) ?_
      exact safe_reg rest (i + 1) _ (by omega) (h.set' (length_splice (by omega)))

theorem caught_none {o : Out} : o.caught = none ↔ o = .ub := by cases o <;> simp [Out.caught]

theorem Out.Safe.ne {P : Obj → Prop} {o : Out} (h : o.Safe P) : o ≠ .ub := by rintro rfl; exact h

theorem ub_call {c : Cfg} {s : Obj} (h : Sized c s) (k : Call) : k.run c s = none ↔
    (∃ y u, k = .loadConf (some y) u ∧ LoadOverruns c s.symb y) ∨ ∃ cols v, k = .setDH cols v ∧ cols ≠ 1 ∧ v.length = (s.vec .DH).length := by
  have no : ∀ {o : Out}, o.Safe (Sized c) → o.caught = none → False := fun h e => h.ne (caught_none.1 e)
  have sz : ∀ {f : Field} {v : List Num}, v.length = (s.vec f).length → Sized c (s.set f v) := fun hv => h.set' hv
  cases k with
  | setVar f v =>
    refine ⟨fun e => ?_, by rintro (⟨_, _, h, _⟩ | ⟨_, _, h, _⟩) <;> cases h⟩
    simp only [Call.run, setVar] at e
    split at e <;> cases e
  | setPar f v =>
    refine ⟨fun e => ?_, by rintro (⟨_, _, h, _⟩ | ⟨_, _, h, _⟩) <;> cases h⟩
    simp only [Call.run, setPar] at e
    split at e <;> cases e
  | setArguments a b d g =>
    refine ⟨fun e => ?_, by rintro (⟨_, _, h, _⟩ | ⟨_, _, h, _⟩) <;> cases h⟩
    simp only [Call.run, setArguments] at e
    split at e <;> cases e
  | setDH k v =>
    simp only [Call.run, setDH]
    split
    · next hv =>
      split
      · next hk =>
        refine ⟨fun e => (by cases e), ?_⟩
        rintro (⟨_, _, h, _⟩ | ⟨_, _, h, h', _⟩) <;> cases h
        exact absurd hk h'
      · next hk => exact ⟨fun _ => Or.inr ⟨k, v, rfl, hk, hv⟩, fun _ => rfl⟩
    · next hv =>
      refine ⟨fun e => (by cases e), ?_⟩
      rintro (⟨_, _, h, _⟩ | ⟨_, _, h, _, h'⟩) <;> cases h
      exact absurd h' hv
  | setDYN v u =>
    refine ⟨fun e => ?_, by rintro (⟨_, _, h, _⟩ | ⟨_, _, h, _⟩) <;> cases h⟩
    have h1 : Sized c (if v.length = (s.vec .DYN).length then s.set .DYN v else s) := by
      split
      · next hv => exact sz hv
      · exact h
    simp only [Call.run, setDYN] at e
    cases u
    · cases e
    · rw [if_pos rfl, updateREG_eq h1] at e
      cases e
  | setREG v u =>
    refine ⟨fun e => ?_, by rintro (⟨_, _, h, _⟩ | ⟨_, _, h, _⟩) <;> cases h⟩
    have h1 : Sized c (if v.length = (s.vec .REG).length then s.set .REG v else s) := by
      split
      · next hv => exact sz hv
      · exact h
    simp only [Call.run, setREG] at e
    cases u
    · cases e
    · rw [if_pos rfl, updateDYN_eq h1] at e
      cases e
  | loadREG f u =>
    refine ⟨fun e => (no ?_ e).elim, by rintro (⟨_, _, h, _⟩ | ⟨_, _, h, _⟩) <;> cases h⟩
    refine safe_yaml h fun config _ => safe_yaml h fun dyn _ => ?_
    split
    · refine (safe_reg _ _ _ (Nat.zero_le _) h).bind (fun _ h => h) fun s h => ?_
      split
      · rw [updateDYN_eq h]
        exact h.set' (by rw [length_dynOfRegW]; exact (h .DYN id).symm)
      · exact h
    · exact h
  | loadConf f u =>
    cases f with
    | none =>
      refine ⟨fun e => (by cases e), ?_⟩
      rintro (⟨_, _, h, _⟩ | ⟨_, _, h, _⟩) <;> cases h
    | some y =>
      refine (caught_none.trans (ub_load c u y h)).trans ⟨fun h => Or.inl ⟨y, u, rfl, h⟩, ?_⟩
      rintro (⟨_, _, h, h'⟩ | ⟨_, _, h, _⟩) <;> cases h
      exact h'
  | resizeVariables =>
    refine ⟨fun e => (by cases e), ?_⟩
    rintro (⟨_, _, h, _⟩ | ⟨_, _, h, _⟩) <;> cases h

end Thunder.Wrap
