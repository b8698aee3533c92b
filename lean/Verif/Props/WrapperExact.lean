import Verif.Props.Wrapper

/-!
# C30: the exact conditions

For every call with the default flag, when it leaves `par_REG` equal to the REG image of `par_DYN`.
-/

namespace Thunder.Spec

open Thunder.Wrap

/-- The ten values of a node `inertial` can be read. -/
def InertialReadable (com : String) (y : Yaml) : Prop :=
  ∀ key ∈ ["mass", com ++ "x", com ++ "y", com ++ "z", "Ixx", "Ixy", "Ixz", "Iyy", "Iyz", "Izz"], ∃ x, (y.getM key).bind Yaml.asD = some x

/-- `load_par_REG` can read an entry of the section `dynamics`. -/
def LinkReadable (com : String) (e : Option String × Yaml) : Prop :=
  e.1 ≠ none ∧ ∃ y, e.2.getC "inertial" = some y ∧ InertialReadable com y

/-- `load_conf` can read an entry of the section `dynamics`: the inertial values and, if there is a node `friction`, the vector `Dl`. -/
def EntryReadable (e : Option String × Yaml) : Prop :=
  LinkReadable "CoM_" e ∧ ∃ fr, e.2.getC "friction" = some fr ∧ (fr.isDef = true → ∃ dl, (fr.getC "Dl").bind (Yaml.asVec Yaml.asD) = some dl)

/-- The centre of mass of link `i` can be computed from `par_REG` (or the link has an undetermined entry anyway). -/
def Divisible (reg : List Num) (i : ℕ) : Prop := NaNBlock reg i ∨ ∃ m : ℝ, m ≠ 0 ∧ reg[10 * i]? = some (some m)

/-- The section `dynamics` of a file. -/
def Section (f : Option Yaml) (dyn : Yaml) : Prop := ∃ y, f = some y ∧ y.getM "dynamics" = some dyn ∧ dyn.isDef = true

end Thunder.Spec

namespace Thunder.Wrap

open Spec

/-! ## Lemmas -/

theorem mapM_isSome {α β : Type} {f : α → Option β} : ∀ {l : List α}, (∃ r, l.mapM f = some r) ↔ ∀ a ∈ l, ∃ b, f a = some b
  | [] => by simp
  | a :: l => by
    have ih := mapM_isSome (f := f) (l := l)
    constructor
    · rintro ⟨r, h⟩
      obtain ⟨b, bs, hb, hbs, -⟩ := mapM_cons_some h
      intro x hx
      rcases List.mem_cons.1 hx with rfl | hx
      · exact ⟨b, hb⟩
      · exact ih.1 ⟨bs, hbs⟩ x hx
    · intro h
      obtain ⟨b, hb⟩ := h a List.mem_cons_self
      obtain ⟨bs, hbs⟩ := ih.2 fun x hx => h x (List.mem_cons_of_mem _ hx)
      exact ⟨b :: bs, by rw [List.mapM_cons, hb, hbs]; rfl⟩

theorem readInertial_iff {com : String} {y : Yaml} : (∃ p, readInertial com y = some p) ↔ InertialReadable com y := mapM_isSome

theorem readLink_iff {com : String} {e : Option String × Yaml} : (∃ p, readLink com e = some p) ↔ LinkReadable com e := by
  constructor
  · rintro ⟨p, h⟩
    simp only [readLink, Option.bind_eq_some_iff] at h
    obtain ⟨k, hk, y, hy, hp⟩ := h
    exact ⟨by rw [hk]; exact Option.some_ne_none k, y, hy, readInertial_iff.1 ⟨p, hp⟩⟩
  · rintro ⟨hk, y, hy, h⟩
    obtain ⟨k, hk⟩ := Option.ne_none_iff_exists'.1 hk
    obtain ⟨p, hp⟩ := readInertial_iff.2 h
    exact ⟨p, by rw [readLink, hk, Option.bind_some, hy, Option.bind_some, hp]⟩

theorem readDynLink_iff {e : Option String × Yaml} : (∃ p, readDynLink e = some p) ↔ EntryReadable e := by
  constructor
  · rintro ⟨p, h⟩
    simp only [readDynLink, Option.bind_eq_some_iff] at h
    obtain ⟨a, ha, fr, hfr, h⟩ := h
    refine ⟨readLink_iff.1 ⟨a, ha⟩, fr, hfr, fun hd => ?_⟩
    rw [if_pos hd] at h
    obtain ⟨dl, hdl, -⟩ := Option.map_eq_some_iff.1 h
    exact ⟨dl, hdl⟩
  · rintro ⟨hl, fr, hfr, h⟩
    obtain ⟨a, ha⟩ := readLink_iff.2 hl
    rw [readDynLink, ha, Option.bind_some, hfr, Option.bind_some]
    split
    · next hd =>
      obtain ⟨dl, hdl⟩ := h hd
      exact ⟨_, by rw [hdl]; rfl⟩
    · exact ⟨_, rfl⟩

/-- The conversion to `par_DYN` is consistent exactly when every link is divisible. -/
theorem consistent_dyn {n : ℕ} {r : List Num} (hr : r.length = 10 * n) :
    Consistent n (dynOfRegW n r) r ↔ ∀ i < n, Divisible r i := by
  have hs : ∀ i < n, ∀ k < 10, r[10 * i + k]? = some (seg r i k) := fun i hi k hk => by
    have : 10 * i + k < r.length := by omega
    simp [seg, List.getD_eq_getElem?_getD, this]
  have hd : ∀ i < n, ∀ k < 10, (dynOfRegW n r)[10 * i + k]? = (linkDyn steinerWrap (seg r i))[k]? := fun i hi k hk =>
    getElem?_flatMap_block (fun i => length_linkDyn _ _) hi hk
  constructor
  · rintro ⟨-, -, h⟩ i hi
    rcases h i hi with ⟨p, hp, hq⟩ | ⟨-, h⟩
    · refine Or.inr ⟨p 0, fun h0 => ?_, hq 0 (by decide)⟩
      have h1 := hp 1 (by decide)
      have h2 : seg r i 0 = some (p 0) := Option.some.inj ((hs i hi 0 (by decide)).symm.trans (hq 0 (by decide)))
      rw [hd i hi 1 (by decide)] at h1
      simp [linkDyn, h2, h0] at h1
    · exact Or.inl h
  · intro h
    refine ⟨length_dynOfRegW _ _, hr, fun i hi => ?_⟩
    by_cases hall : ∀ k < 10, ∃ x, seg r i k = some x
    · choose! p hp using hall
      have hm : p 0 ≠ 0 := by
        rcases h i hi with ⟨k, hk, hk'⟩ | ⟨m, hm, hm'⟩
        · rw [hs i hi k hk, hp k hk] at hk'
          cases hk'
        · have := hs i hi 0 (by decide)
          rw [Nat.add_zero, hm', hp 0 (by decide)] at this
          rw [← Option.some.inj (Option.some.inj this)]
          exact hm
      -- a vector of numbers whose first block is this link
      have hone := reg_dyn_of_realMass (n := 1) (r := vecN (10 * 1) p) ⟨p, rfl, fun j hj => by rw [Nat.lt_one_iff.1 hj]; exact hm⟩
      have hc := consistent_of_eq (length_dynOfRegW 1 (vecN (10 * 1) p)) hone.symm
      have hseg : ∀ k < 10, seg (vecN (10 * 1) p) 0 k = seg r i k := fun k hk => by
        rw [seg_vecN (by omega), hp k hk, Nat.mul_zero, Nat.zero_add]
      have hlk : linkDyn steinerWrap (seg (vecN (10 * 1) p) 0) = linkDyn steinerWrap (seg r i) := by
        simp only [linkDyn, hseg 0 (by decide), hseg 1 (by decide), hseg 2 (by decide), hseg 3 (by decide), hseg 4 (by decide),
          hseg 5 (by decide), hseg 6 (by decide), hseg 7 (by decide), hseg 8 (by decide), hseg 9 (by decide)]
      have hd0 : ∀ k < 10, (dynOfRegW 1 (vecN (10 * 1) p))[10 * 0 + k]? = (dynOfRegW n r)[10 * i + k]? := fun k hk => by
        rw [hd i hi k hk, ← hlk]
        exact getElem?_flatMap_block (fun i => length_linkDyn _ _) Nat.one_pos hk
      have hr0 : ∀ k < 10, (vecN (10 * 1) p)[10 * 0 + k]? = r[10 * i + k]? := fun k hk => by
        rw [hs i hi k hk, hp k hk]
        have : 10 * 0 + k < 10 * 1 := by omega
        rw [vecN, List.getElem?_map, List.getElem?_range this, Nat.mul_zero, Nat.zero_add]
        rfl
      rcases hc.2.2 0 Nat.one_pos with ⟨x, hx, hy⟩ | ⟨-, k, hk, hk'⟩
      · exact Or.inl ⟨x, fun k hk => by rw [← hd0 k hk]; exact hx k hk, fun k hk => by rw [← hr0 k hk]; exact hy k hk⟩
      · rw [hr0 k hk, hs i hi k hk, hp k hk] at hk'
        cases hk'
    · push Not at hall
      obtain ⟨k, hk, hk'⟩ := hall
      have hk0 : seg r i k = none := Option.eq_none_iff_forall_ne_some.mpr hk'
      refine Or.inr ⟨⟨k, hk, ?_⟩, k, hk, by rw [hs i hi k hk, hk0]⟩
      rw [hd i hi k hk]
      have : k = 0 ∨ k = 1 ∨ k = 2 ∨ k = 3 ∨ k = 4 ∨ k = 5 ∨ k = 6 ∨ k = 7 ∨ k = 8 ∨ k = 9 := by omega
      rcases this with rfl | rfl | rfl | rfl | rfl | rfl | rfl | rfl | rfl | rfl <;> simp [linkDyn, up6, hk0]

/-- `update_inertial_DYN` at the end of a call. -/
theorem updateDYN_exact {c : Cfg} {s : Obj} (h : Sized c s) :
    (updateDYN c s).All fun s' => s'.vec .REG = s.vec .REG ∧ (Consistent c.n (s'.vec .DYN) (s'.vec .REG) ↔ ∀ i < c.n, Divisible (s'.vec .REG) i) := by
  rw [updateDYN_eq h]
  refine ⟨set_vec_ne _ _ (by decide), ?_⟩
  rw [set_vec_same, set_vec_ne _ _ (by decide)]
  exact consistent_dyn (h .REG id)

theorem updateREG_exact {c : Cfg} {s : Obj} (h : Sized c s) : (updateREG c s).All fun s' => Consistent c.n (s'.vec .DYN) (s'.vec .REG) := by
  have := inv_updateREG h
  rw [updateREG_eq h] at this ⊢
  exact consistent_of_eq (this.1 .DYN id) this.2

theorem keeps_regLoop {c : Cfg} {s0 : Obj} : ∀ (l : List (Option String × Yaml)) (i : ℕ) (s : Obj), Keeps (fun f => f = .DYN) s0 s →
    (regLoop c l i s).All (Keeps (fun f => f = .DYN) s0)
  | [], _, _, h => h
  | (key, nd) :: rest, i, s, h => by
    unfold regLoop
    split
    · exact h
    · exact all_yaml h fun _ _ => all_yaml h fun _ _ => all_yaml h fun _ _ => all_must fun v _ => keeps_regLoop rest _ _ (h.set (by simp))

theorem keeps_dynLoop {c : Cfg} {s0 : Obj} : ∀ (l : List (Option String × Yaml)) (i : ℕ) (s : Obj), Keeps (fun f => f = .REG) s0 s →
    (dynLoop c l i s).All (Keeps (fun f => f = .REG) s0)
  | [], _, _, h => h
  | (key, nd) :: rest, i, s, h => by
    unfold dynLoop
    split
    · exact h
    · refine all_yaml h fun _ _ => all_yaml h fun _ _ => all_yaml h fun _ _ => all_must fun v _ => ?_
      have h1 : Keeps (fun f => f = .REG) s0 (s.set .DYN v) := h.set (by simp)
      refine all_yaml h1 fun fric _ => ?_
      split
      · exact all_yaml h1 fun dl _ => all_must fun u _ => keeps_dynLoop rest _ _ (h1.set (by simp))
      · exact keeps_dynLoop rest _ _ h1

/-- The loop of `load_par_REG` throws exactly when an entry cannot be read. -/
theorem regLoop_exc {c : Cfg} : ∀ (items : List (Option String × Yaml)) (i : ℕ) (s : Obj), Sized c s → i ≤ c.n →
    (¬ ∃ L, (items.take (c.n - i)).mapM (readLink "m_CoM_") = some L) → ∃ s', regLoop c items i s = .exc s'
  | [], i, s, _, _, hn => absurd ⟨[], by simp⟩ hn
  | (key, nd) :: rest, i, s, h, hi, hn => by
    unfold regLoop
    by_cases hin : i = c.n
    · subst hin
      exact absurd ⟨[], by simp⟩ hn
    · rw [if_neg hin]
      obtain ⟨m, hm⟩ : ∃ m, c.n - i = m + 1 := ⟨c.n - i - 1, by omega⟩
      rw [hm, List.take_succ_cons] at hn
      have hr : (s.vec .REG).length = 10 * c.n := h .REG id
      cases h1 : nd.getC "inertial" with
      | none => exact ⟨s, rfl⟩
      | some inertial =>
        cases key with
        | none => exact ⟨s, rfl⟩
        | some key =>
          cases h2 : readInertial "m_CoM_" inertial with
          | none => exact ⟨s, by simp only [yaml, h2]⟩
          | some p =>
            have hlen := length_readInertial h2
            simp only [yaml, h2]
            rw [setSeg_some (by omega), must]
            refine regLoop_exc rest (i + 1) _ (h.set' (length_splice (by omega))) (by omega) fun ⟨L, hL⟩ => hn ⟨p :: L, ?_⟩
            rw [List.mapM_cons, readLink, Option.bind_some, h1, Option.bind_some, h2]
            rw [show c.n - (i + 1) = m by omega] at hL
            rw [hL]
            rfl

/-- The loop of `load_conf` over the links returns only when every entry can be read. -/
theorem dynLoop_readable {c : Cfg} : ∀ (items : List (Option String × Yaml)) (i : ℕ) (s s' : Obj), i ≤ c.n → dynLoop c items i s = .ok s' →
    ∃ L, (items.take (c.n - i)).mapM readDynLink = some L
  | [], i, s, s', _, _ => ⟨[], by simp⟩
  | (key, nd) :: rest, i, s, s', hi, e => by
    unfold dynLoop at e
    by_cases hin : i = c.n
    · subst hin
      exact ⟨[], by simp⟩
    · rw [if_neg hin] at e
      obtain ⟨m, hm⟩ : ∃ m, c.n - i = m + 1 := ⟨c.n - i - 1, by omega⟩
      rw [hm, List.take_succ_cons]
      cases h1 : nd.getC "inertial" with
      | none => rw [h1] at e; cases e
      | some inertial =>
        rw [h1] at e
        cases key with
        | none => cases e
        | some key =>
          cases h2 : readInertial "CoM_" inertial with
          | none => simp only [yaml, h2] at e; cases e
          | some p =>
            simp only [yaml, h2] at e
            cases h3 : setSeg (s.vec .DYN) (10 * i) p with
            | none => rw [h3] at e; cases e
            | some v =>
              rw [h3] at e
              simp only [must] at e
              cases h4 : nd.getC "friction" with
              | none => rw [h4] at e; cases e
              | some fr =>
                rw [h4] at e
                simp only at e
                split at e
                · next hd =>
                  cases h5 : (fr.getC "Dl").bind (Yaml.asVec Yaml.asD) with
                  | none => rw [h5] at e; cases e
                  | some dl =>
                    rw [h5] at e
                    simp only at e
                    split at e
                    · obtain ⟨L, hL⟩ := dynLoop_readable rest (i + 1) _ _ (by omega) e
                      rw [show c.n - (i + 1) = m by omega] at hL
                      refine ⟨(p, some dl) :: L, ?_⟩
                      rw [List.mapM_cons, readDynLink, readLink, Option.bind_some, h1, Option.bind_some, h2, Option.bind_some, h4,
                        Option.bind_some, if_pos hd, h5, hL]
                      rfl
                    · cases e
                · next hd =>
                  obtain ⟨L, hL⟩ := dynLoop_readable rest (i + 1) _ _ (by omega) e
                  rw [show c.n - (i + 1) = m by omega] at hL
                  refine ⟨(p, none) :: L, ?_⟩
                  rw [List.mapM_cons, readDynLink, readLink, Option.bind_some, h1, Option.bind_some, h2, Option.bind_some, h4,
                    Option.bind_some, if_neg hd, hL]
                  rfl

/-- The loop of `load_conf` over the links throws only when an entry cannot be read. -/
theorem dynLoop_unreadable {c : Cfg} : ∀ (items : List (Option String × Yaml)) (i : ℕ) (s s' : Obj), i ≤ c.n → dynLoop c items i s = .exc s' →
    ¬ ∃ L, (items.take (c.n - i)).mapM readDynLink = some L
  | [], i, s, s', _, e => by cases e
  | (key, nd) :: rest, i, s, s', hi, e => by
    unfold dynLoop at e
    by_cases hin : i = c.n
    · rw [if_pos hin] at e; cases e
    · rw [if_neg hin] at e
      obtain ⟨m, hm⟩ : ∃ m, c.n - i = m + 1 := ⟨c.n - i - 1, by omega⟩
      rw [hm, List.take_succ_cons]
      rintro ⟨L', hL'⟩
      obtain ⟨q, L, hq, hL, rfl⟩ := mapM_cons_some hL'
      simp only [readDynLink, readLink, Option.bind_eq_some_iff] at hq
      obtain ⟨p, ⟨k, hk, y, hy, hp⟩, fr, hfr, hq⟩ := hq
      obtain rfl : key = some k := hk
      rw [show m = c.n - (i + 1) by omega] at hL
      simp only [hy, yaml, hp, hfr] at e
      cases h3 : setSeg (s.vec .DYN) (10 * i) p with
      | none => rw [h3] at e; cases e
      | some v =>
        rw [h3] at e
        simp only [must] at e
        split at e
        · next hd =>
          rw [if_pos hd] at hq
          obtain ⟨dl, hdl, -⟩ := Option.map_eq_some_iff.1 hq
          rw [hdl] at e
          simp only at e
          split at e
          · exact dynLoop_unreadable rest (i + 1) _ _ (by omega) e ⟨L, hL⟩
          · cases e
        · exact dynLoop_unreadable rest (i + 1) _ _ (by omega) e ⟨L, hL⟩

/-! ## C30 -/

/-- **C30**: after `set_par_DYN` with update `par_REG` is the REG image of `par_DYN`, whatever the state and the argument. -/
theorem C30_set_par_DYN (c : Cfg) (ks : List Call) {s s' : Obj} (e : runAll c ks (init c) = some s) (v : List Num)
    (e' : (Call.setDYN v true).run c s = some s') : Consistent c.n (s'.vec .DYN) (s'.vec .REG) := by
  have h := sized_runAll ks (sized_init c) e
  refine Out.All.caught (o := setDYN c v true s) (P := fun s' => Consistent c.n (s'.vec .DYN) (s'.vec .REG)) ?_ e'
  unfold setDYN
  refine updateREG_exact ?_
  split
  · next hv => exact h.set' hv
  · exact h

/-- **C30**: after `set_par_REG` with update, exactly when no link with only numbers has mass zero. -/
theorem C30_set_par_REG_iff (c : Cfg) (ks : List Call) {s s' : Obj} (e : runAll c ks (init c) = some s) (v : List Num)
    (e' : (Call.setREG v true).run c s = some s') :
    s'.vec .REG = (if v.length = 10 * c.n then v else s.vec .REG) ∧
    (Consistent c.n (s'.vec .DYN) (s'.vec .REG) ↔ ∀ i < c.n, Divisible (s'.vec .REG) i) := by
  have h := sized_runAll ks (sized_init c) e
  have hr : (s.vec .REG).length = 10 * c.n := h .REG id
  refine Out.All.caught (o := setREG c v true s) (P := fun s' => s'.vec .REG = (if v.length = 10 * c.n then v else s.vec .REG) ∧
    (Consistent c.n (s'.vec .DYN) (s'.vec .REG) ↔ ∀ i < c.n, Divisible (s'.vec .REG) i)) ?_ e'
  unfold setREG
  rw [hr]
  by_cases hv : v.length = 10 * c.n
  · simp only [hv, if_true]
    have := updateDYN_exact (c := c) (s := s.set .REG v) (h.set' (by rw [hv, hr]))
    rwa [set_vec_same] at this
  · simp only [hv, if_false, if_true]
    exact updateDYN_exact h

/-- **C30**: after `load_par_REG` with update.  When the file has a section `dynamics` whose first entries can all be read, exactly when no link with
only numbers has mass zero; otherwise `par_DYN` is not touched, and if it held numbers and the vectors were consistent before they are so afterwards
exactly when `par_REG` has not changed either. -/
theorem C30_load_par_REG (c : Cfg) (ks : List Call) {s s' : Obj} (e : runAll c ks (init c) = some s) (f : Option Yaml)
    (e' : (Call.loadREG f true).run c s = some s') :
    (∀ dyn, Section f dyn → (∀ x ∈ dyn.items.take c.n, LinkReadable "m_CoM_" x) →
      (Consistent c.n (s'.vec .DYN) (s'.vec .REG) ↔ ∀ i < c.n, Divisible (s'.vec .REG) i)) ∧
    ((∀ dyn, Section f dyn → ∃ x ∈ dyn.items.take c.n, ¬ LinkReadable "m_CoM_" x) →
      s'.vec .DYN = s.vec .DYN ∧ ∀ p, s.vec .DYN = vecN (10 * c.n) p → Consistent c.n (s.vec .DYN) (s.vec .REG) →
        (Consistent c.n (s'.vec .DYN) (s'.vec .REG) ↔ s'.vec .REG = s.vec .REG)) := by
  have h := sized_runAll ks (sized_init c) e
  have hs' := sized_run h e'
  have hr : (s.vec .REG).length = 10 * c.n := h .REG id
  have hlink : ∀ dyn : Yaml, (∃ L, (dyn.items.take (c.n - 0)).mapM (readLink "m_CoM_") = some L) ↔
      ∀ x ∈ dyn.items.take c.n, LinkReadable "m_CoM_" x := fun dyn => by
    rw [mapM_isSome, Nat.sub_zero]
    exact forall₂_congr fun x _ => readLink_iff
  have hrun : loadREG c f true s = some s' := e'
  unfold loadREG at hrun
  constructor
  · rintro dyn ⟨y, rfl, hd, hdef⟩ hall
    obtain ⟨L, hL⟩ := (hlink dyn).2 hall
    simp only [yaml, hd, hdef, if_true] at hrun
    have hlen : L.flatten.length ≤ 10 * c.n := by
      have h10 : ∀ l ∈ L, l.length = 10 := by
        have hall := hL
        clear hL
        revert L
        generalize dyn.items.take (c.n - 0) = its
        induction its with
        | nil => intro L hL; cases hL; simp
        | cons a its ih =>
          intro L hL
          obtain ⟨b, bs, h1, h2, rfl⟩ := mapM_cons_some hL
          simp only [readLink, Option.bind_eq_some_iff] at h1
          obtain ⟨_, _, _, _, h1⟩ := h1
          intro l hl
          rcases List.mem_cons.mp hl with rfl | hl
          · exact length_readInertial h1
          · exact ih bs h2 l hl
      have h1 : L.flatten.length = 10 * L.length := by rw [List.length_flatten, List.map_congr_left h10]; simp [mul_comm]
      have h2 := length_of_mapM hL
      rw [h1, h2, List.length_take]
      omega
    rw [regLoop_ok _ 0 s L h (Nat.zero_le _) hL] at hrun
    exact (Out.All.caught (updateDYN_exact (h.set' (length_splice (by omega)))) hrun).2
  · intro hno
    have hkeep : s'.vec .DYN = s.vec .DYN := by
      refine Out.All.caught (P := fun s' => s'.vec .DYN = s.vec .DYN) ?_ hrun
      refine all_yaml rfl fun y hy => all_yaml rfl fun dyn hd => ?_
      split
      · next hdef =>
        obtain ⟨x, hx, hnx⟩ := hno dyn ⟨y, hy, hd, hdef⟩
        obtain ⟨s1, h1⟩ := regLoop_exc dyn.items 0 s h (Nat.zero_le _) fun hL => hnx ((hlink dyn).1 hL x hx)
        have hk := keeps_regLoop (c := c) dyn.items 0 s (Keeps.refl _ s)
        rw [h1] at hk ⊢
        exact hk .DYN rfl
      · rfl
    refine ⟨hkeep, fun p hp hc => ?_⟩
    rw [hkeep]
    rw [hp] at hc ⊢
    exact ⟨fun hc' => (eq_of_consistent hc').trans (eq_of_consistent hc).symm, fun he => by rw [he]; exact hc⟩

/-- **C30**: after `load_conf` with update.  If every entry that is looked at in the section `dynamics` can be read, the vectors are consistent if
they were so before the call; if moreover `par_DYN` or `par_REG` has changed they are consistent in any case.  Otherwise `par_REG` is not touched. -/
theorem C30_load_conf (c : Cfg) (ks : List Call) {s s' : Obj} (e : runAll c ks (init c) = some s) (f : Option Yaml)
    (e' : (Call.loadConf f true).run c s = some s') :
    ((∀ dyn, Section f dyn → ∀ x ∈ dyn.items.take c.n, EntryReadable x) →
      Consistent c.n (s'.vec .DYN) (s'.vec .REG) ∨ s'.vec .DYN = s.vec .DYN ∧ s'.vec .REG = s.vec .REG) ∧
    ((∃ dyn, Section f dyn ∧ ∃ x ∈ dyn.items.take c.n, ¬ EntryReadable x) → s'.vec .REG = s.vec .REG) := by
  have h := sized_runAll ks (sized_init c) e
  have hlink : ∀ dyn : Yaml, (∃ L, (dyn.items.take (c.n - 0)).mapM readDynLink = some L) ↔ ∀ x ∈ dyn.items.take c.n, EntryReadable x :=
    fun dyn => by
    rw [mapM_isSome, Nat.sub_zero]
    exact forall₂_congr fun x _ => readDynLink_iff
  -- the state is one of three
  have key : (Consistent c.n (s'.vec .DYN) (s'.vec .REG) ∧ ∃ dyn, Section f dyn ∧ ∀ x ∈ dyn.items.take c.n, EntryReadable x) ∨
      (s'.vec .DYN = s.vec .DYN ∧ s'.vec .REG = s.vec .REG) ∨
      (s'.vec .REG = s.vec .REG ∧ ∃ dyn, Section f dyn ∧ ¬ ∀ x ∈ dyn.items.take c.n, EntryReadable x) := by
    refine Out.All.caught (P := fun s' => (Consistent c.n (s'.vec .DYN) (s'.vec .REG) ∧ ∃ dyn, Section f dyn ∧
      ∀ x ∈ dyn.items.take c.n, EntryReadable x) ∨ (s'.vec .DYN = s.vec .DYN ∧ s'.vec .REG = s.vec .REG) ∨
      (s'.vec .REG = s.vec .REG ∧ ∃ dyn, Section f dyn ∧ ¬ ∀ x ∈ dyn.items.take c.n, EntryReadable x)) ?_ e'
    refine all_yaml (Or.inr (Or.inl ⟨rfl, rfl⟩)) fun config hcf => ?_
    have kept : ∀ {s1 : Obj}, Keeps (fun f => f = .DYN ∨ f = .REG) s s1 → (Consistent c.n (s1.vec .DYN) (s1.vec .REG) ∧ ∃ dyn, Section f dyn ∧
        ∀ x ∈ dyn.items.take c.n, EntryReadable x) ∨ (s1.vec .DYN = s.vec .DYN ∧ s1.vec .REG = s.vec .REG) ∨
        (s1.vec .REG = s.vec .REG ∧ ∃ dyn, Section f dyn ∧ ¬ ∀ x ∈ dyn.items.take c.n, EntryReadable x) :=
      fun hk => Or.inr (Or.inl ⟨hk .DYN (Or.inl rfl), hk .REG (Or.inr rfl)⟩)
    unfold loadBody
    refine (out_all_and (sized_loadKin h) (keeps_loadKin (by simp) (Keeps.refl _ s))).bind (fun _ h' => kept h'.2) fun s1 h1 => ?_
    refine (out_all_and (sized_loadFrame (f := .W2L) trivial h1.1) (keeps_loadFrame (f := .W2L) (by simp) h1.2)).bind (fun _ h' => kept h'.2)
      fun s2 h2 => ?_
    refine (out_all_and (sized_loadFrame (f := .EE) trivial h2.1) (keeps_loadFrame (f := .EE) (by simp) h2.2)).bind
      (fun _ h' => kept h'.2) fun s3 h3 => ?_
    refine Out.All.bind (P := fun s' => Sized c s' ∧ ((Consistent c.n (s'.vec .DYN) (s'.vec .REG) ∧ ∃ dyn, Section f dyn ∧
      ∀ x ∈ dyn.items.take c.n, EntryReadable x) ∨ (s'.vec .DYN = s.vec .DYN ∧ s'.vec .REG = s.vec .REG) ∨
      (s'.vec .REG = s.vec .REG ∧ ∃ dyn, Section f dyn ∧ ¬ ∀ x ∈ dyn.items.take c.n, EntryReadable x))) ?_ (fun _ h => h.2) fun s4 h4 => ?_
    · refine out_all_and (sized_loadDyn h3.1) ?_
      unfold loadDyn
      refine all_yaml (kept h3.2) fun dyn hdyn => ?_
      split
      · next hdef =>
        have hsec : Section f dyn := ⟨config, hcf, hdyn, hdef⟩
        have hsz := sized_dynLoop dyn.items 0 s3 h3.1
        have hkp := keeps_dynLoop (c := c) dyn.items 0 s3 (Keeps.refl _ s3)
        cases ho : dynLoop c dyn.items 0 s3 with
        | ok s' =>
          rw [ho] at hsz
          have hread := (hlink dyn).1 (dynLoop_readable dyn.items 0 s3 s' (Nat.zero_le _) ho)
          show (updateREG c s').All _
          have := updateREG_exact (c := c) (s := s') hsz
          revert this
          cases updateREG c s' with
          | ok a => exact fun this => Or.inl ⟨this, dyn, hsec, hread⟩
          | exc a => exact fun this => Or.inl ⟨this, dyn, hsec, hread⟩
          | ub => exact fun _ => trivial
        | exc s' =>
          rw [ho] at hkp
          exact Or.inr (Or.inr ⟨(hkp .REG rfl).trans (h3.2 .REG (Or.inr rfl)), dyn, hsec,
            fun ha => dynLoop_unreadable dyn.items 0 s3 s' (Nat.zero_le _) ho ((hlink dyn).2 ha)⟩)
        | ub => trivial
      · exact kept h3.2
    · have fin : ∀ {s5 : Obj}, Keeps (fun f => f = .DYN ∨ f = .REG) s4 s5 → (Consistent c.n (s5.vec .DYN) (s5.vec .REG) ∧ ∃ dyn, Section f dyn ∧
          ∀ x ∈ dyn.items.take c.n, EntryReadable x) ∨ (s5.vec .DYN = s.vec .DYN ∧ s5.vec .REG = s.vec .REG) ∨
          (s5.vec .REG = s.vec .REG ∧ ∃ dyn, Section f dyn ∧ ¬ ∀ x ∈ dyn.items.take c.n, EntryReadable x) := fun hk => by
        rw [hk .DYN (Or.inl rfl), hk .REG (Or.inr rfl)]
        exact h4.2
      refine (keeps_loadGrav (by simp) (Keeps.refl _ s4)).bind (fun _ h' => fin h') fun s5 h5 => ?_
      have h6 := keeps_loadEla (c := c) (y := config) (F := fun f => f = .DYN ∨ f = .REG) (by simp) (by simp) (by simp) (by simp) h5
      revert h6
      cases loadEla c config s5 with
      | ok s6 => exact fun h6 => fin h6
      | exc s6 => exact fun h6 => fin h6
      | ub => exact fun _ => trivial
  have one : ∀ {d d' : Yaml}, Section f d → Section f d' → d = d' := by
    rintro d d' ⟨y, rfl, h1, -⟩ ⟨y', hy', h2, -⟩
    cases hy'
    exact Option.some.inj (h1.symm.trans h2)
  constructor
  · intro hall
    rcases key with ⟨hc, -⟩ | hk | ⟨-, dyn, hsec, hn⟩
    · exact Or.inl hc
    · exact Or.inr hk
    · exact absurd (hall dyn hsec) hn
  · rintro ⟨dyn, hsec, x, hx, hnx⟩
    rcases key with ⟨-, dyn', hsec', hall⟩ | hk | ⟨hk, -⟩
    · cases one hsec hsec'
      exact absurd (hall x hx) hnx
    · exact hk.2
    · exact hk

/-- **C30**: the remaining calls do not touch the two vectors (`resizeVariables` sets both to zero). -/
theorem C30_other (c : Cfg) {s s' : Obj} {k : Call} (e' : k.run c s = some s')
    (hk : match k with | .setDYN _ _ | .setREG _ _ | .loadREG _ _ | .loadConf _ _ => False | _ => True) :
    s'.vec .DYN = s.vec .DYN ∧ s'.vec .REG = s.vec .REG ∨ k = .resizeVariables ∧ Consistent c.n (s'.vec .DYN) (s'.vec .REG) := by
  have hset : ∀ f v, f ≠ Field.DYN → f ≠ Field.REG → (s.set f v).vec .DYN = s.vec .DYN ∧ (s.set f v).vec .REG = s.vec .REG := fun f v h1 h2 =>
    ⟨set_vec_ne _ _ (Ne.symm h1), set_vec_ne _ _ (Ne.symm h2)⟩
  cases k with
  | setVar f v =>
    simp only [Call.run, setVar] at e'
    split at e' <;> cases e'
    · exact Or.inl (hset _ _ (by cases f <;> decide) (by cases f <;> decide))
    · exact Or.inl ⟨rfl, rfl⟩
  | setPar f v =>
    simp only [Call.run, setPar] at e'
    split at e' <;> cases e'
    · exact Or.inl (hset _ _ (by cases f <;> decide) (by cases f <;> decide))
    · exact Or.inl ⟨rfl, rfl⟩
  | setArguments a b d g =>
    simp only [Call.run, setArguments] at e'
    split at e' <;> cases e'
    · exact Or.inl ⟨rfl, rfl⟩
    · exact Or.inl ⟨rfl, rfl⟩
  | setDH k v =>
    simp only [Call.run, setDH] at e'
    split at e'
    · split at e' <;> cases e'
      exact Or.inl (hset _ _ (by decide) (by decide))
    · cases e'; exact Or.inl ⟨rfl, rfl⟩
  | setDYN v u => exact hk.elim
  | setREG v u => exact hk.elim
  | loadREG f u => exact hk.elim
  | loadConf f u => exact hk.elim
  | resizeVariables =>
    cases e'
    exact Or.inr ⟨rfl, consistent_of_eq ((sized_init c) .DYN id) (inv_init c).2⟩

/-- `C30_set_par_REG_iff` on a fresh object of one joint: with mass 1 the vectors are consistent, with mass 0 they are not. -/
example : (∀ s', (Call.setREG (vecN 10 fun k => k + 1) true).run Ex.c1 (init Ex.c1) = some s' → Consistent 1 (s'.vec .DYN) (s'.vec .REG)) ∧
    ∀ s', (Call.setREG (vecN 10 fun k => k) true).run Ex.c1 (init Ex.c1) = some s' → ¬ Consistent 1 (s'.vec .DYN) (s'.vec .REG) := by
  refine ⟨fun s' e' => ?_, fun s' e' => ?_⟩
  · obtain ⟨h1, h2⟩ := C30_set_par_REG_iff Ex.c1 [] rfl _ e'
    refine h2.2 fun i hi => Or.inr ⟨1, one_ne_zero, ?_⟩
    have : i = 0 := by simp [Ex.c1] at hi; exact hi
    subst this
    rw [h1, if_pos (by simp [Ex.c1])]
    simp [vecN]
  · obtain ⟨h1, h2⟩ := C30_set_par_REG_iff Ex.c1 [] rfl _ e'
    rw [show (1 : ℕ) = Ex.c1.n from rfl, h2, h1, if_pos (by simp [Ex.c1])]
    intro h
    rcases h 0 (by decide) with ⟨k, hk, hk'⟩ | ⟨m, hm, hm'⟩
    · simp [vecN, hk] at hk'
    · simp [vecN] at hm'
      exact hm hm'.symm

/-- `C30_load_conf`: the complete file of `Ex.goodFile` is readable, the entry of `Ex.badFile` is not. -/
example : (∀ dyn, Section (some Ex.goodFile) dyn → ∀ x ∈ dyn.items.take Ex.c1.n, EntryReadable x) ∧
    ∃ dyn, Section (some Ex.badFile) dyn ∧ ∃ x ∈ dyn.items.take Ex.c1.n, ¬ EntryReadable x := by
  refine ⟨?_, _, ⟨_, rfl, rfl, rfl⟩, _, List.mem_cons_self, ?_⟩
  · rintro dyn ⟨y, hy, hd, -⟩ x hx
    cases hy
    simp [Ex.goodFile, Yaml.getM, Yaml.lookup] at hd
    subst hd
    simp [Yaml.items, Ex.c1] at hx
    subst hx
    have hr := Ex.read_inertial [2, 1, 0, 0, 1, 0, 0, 1, 0, 1] rfl
    refine ⟨⟨by simp, _, by simp [Yaml.getC, Yaml.lookup], readInertial_iff.1 ⟨_, hr⟩⟩, .map [(some "Dl", Yaml.ofVec [some 3])],
      by simp [Yaml.getC, Yaml.lookup], fun _ => ?_⟩
    exact ⟨[some 3], by simp [Yaml.getC, Yaml.lookup, Yaml.ofVec, Yaml.asVec, Yaml.ofD, Yaml.asD]⟩
  · rintro ⟨-, fr, hfr, h⟩
    simp [Yaml.getC, Yaml.lookup] at hfr
    subst hfr
    obtain ⟨dl, hdl⟩ := h rfl
    simp [Yaml.getC, Yaml.lookup, Yaml.asVec] at hdl

end Thunder.Wrap
