import Verif.Props.WrapperExact
import Verif.Spec.WrapperLen
import Verif.Lemmas.WrapperBuf

/-!
# Wrapper class: what `load_conf` does to the kinematic members
-/

namespace Thunder.Wrap

open Spec

theorem flagged_eq (f : SField) : flagged f = f.field := by cases f <;> rfl

theorem linkPasses_iff {e : Option String × Yaml} : LinkPasses e ↔ EntryReadable e := by
  constructor
  · rintro ⟨h1, h2, h3⟩
    exact ⟨⟨h1, h2⟩, h3⟩
  · rintro ⟨⟨h1, h2⟩, h3⟩
    exact ⟨h1, h2, h3⟩

theorem length_pick {v : List Num} {flags : List ℤ} {off : ℕ} : ∀ {k : ℕ} {r : List Num}, pick v flags off k = some r →
    off + k ≤ flags.length ∨ k = 0 := by
  intro k r h
  unfold pick at h
  obtain ⟨L, hL, -⟩ := Option.map_eq_some_iff.1 h
  rcases Nat.eq_zero_or_pos k with h0 | h0
  · exact Or.inr h0
  · obtain ⟨x, hx⟩ := mapM_isSome.1 ⟨L, hL⟩ (k - 1) (List.mem_range.2 (by omega))
    obtain ⟨fl, hfl, -⟩ := Option.bind_eq_some_iff.1 hx
    obtain ⟨hlt, -⟩ := List.getElem?_eq_some_iff.1 hfl
    exact Or.inl (by omega)

theorem pick_count {v : List Num} {flags : List ℤ} {off k : ℕ} {r : List Num} (h : pick v flags off k = some r) :
    r.length = reads ((flags.drop off).take k) := by
  have hb := length_pick h
  unfold pick at h
  obtain ⟨L, hL, rfl⟩ := Option.map_eq_some_iff.1 h
  clear h
  induction k generalizing L with
  | zero => simp at hL; subst hL; simp [reads]
  | succ k ih =>
    have hb : off + (k + 1) ≤ flags.length := by omega
    rw [List.range_succ, List.mapM_append] at hL
    obtain ⟨L1, h1, hL⟩ := Option.bind_eq_some_iff.1 hL
    obtain ⟨L2, h2, hL⟩ := Option.bind_eq_some_iff.1 hL
    cases hL
    rw [List.flatten_append, List.length_append, ih (Or.inl (by omega)) L1 h1]
    have hk : k < (flags.drop off).length := by simp; omega
    rw [List.take_succ_eq_append_getElem hk, reads_append]
    congr 1
    obtain ⟨b, bs, hb', hbs, rfl⟩ := mapM_cons_some h2
    cases hbs
    have h1' : off + k < flags.length := by omega
    rw [List.getElem?_eq_getElem h1', Option.bind_some] at hb'
    rw [List.getElem_drop]
    split at hb'
    · next h0 => cases hb'; simp [reads, h0]
    · next h0 =>
      obtain ⟨x, -, rfl⟩ := Option.map_eq_some_iff.1 hb'
      simp [reads, h0]

/-- What a section does to its member. -/
def SecEff (c : Cfg) (y : Yaml) (f : SField) (s s' : Obj) : Prop :=
  (∀ g, g ≠ f.field → s'.vec g = s.vec g) ∧ (∀ g, g ≠ f → s'.symb g = s.symb g) ∧
  ((¬ ∃ nd, Has y f nd) → s'.vec f.field = s.vec f.field ∧ s'.symb f = s.symb f) ∧
  ∀ nd, Has y f nd → (¬ Whole f nd → (s'.vec f.field).length = c.size f.field) ∧
    ∀ fl k, Whole f nd → FlagsOf nd (s.symb f) fl → Values f nd k → s'.symb f = fl ∧ (s'.vec f.field).length = reads (fl.take k)

/-- The outcome of the part of `load_conf` for a section. -/
def SecOut (c : Cfg) (y : Yaml) (f : SField) (s : Obj) : Out → Prop
  | .ok s' => Passes y f ∧ SecEff c y f s s'
  | .exc s' => ¬ Passes y f ∧ SecEff c y f s s'
  | .ub => True

theorem secOut_none {c : Cfg} {y : Yaml} {f : SField} {s : Obj} (h : y.getM (sectionName f) = none) : SecOut c y f s (.exc s) := by
  refine ⟨fun ⟨nd, h1, _⟩ => ?_, fun _ _ => rfl, fun _ _ => rfl, fun _ => ⟨rfl, rfl⟩, fun nd hn => ?_⟩
  · rw [h] at h1; cases h1
  · rw [hn.1] at h; cases h

theorem secOut_undef {c : Cfg} {y nd : Yaml} {f : SField} {s : Obj} (h : y.getM (sectionName f) = some nd) (hd : ¬ nd.isDef = true) :
    SecOut c y f s (.ok s) := by
  refine ⟨⟨nd, h, fun h' => absurd h' hd⟩, fun _ _ => rfl, fun _ _ => rfl, fun _ => ⟨rfl, rfl⟩, fun nd' hn => ?_⟩
  have := hn.1.symm.trans h
  cases this
  exact absurd hn.2 hd

theorem secOut_exc {c : Cfg} {y nd : Yaml} {f : SField} {s s' : Obj} (h : Has y f nd) (hw : ¬ Whole f nd) (h1 : ∀ g, g ≠ f.field → s'.vec g = s.vec g)
    (h2 : ∀ g, g ≠ f → s'.symb g = s.symb g) (h3 : (s'.vec f.field).length = c.size f.field) : SecOut c y f s (.exc s') := by
  refine ⟨fun ⟨nd', hn, hn'⟩ => ?_, h1, h2, fun hno => absurd ⟨nd, h⟩ hno, fun nd' hn => ?_⟩
  · have := h.1.symm.trans hn
    cases this
    exact hw (hn' h.2)
  · have := h.1.symm.trans hn.1
    cases this
    exact ⟨fun _ => h3, fun _ _ h' => absurd h' hw⟩

theorem flags_unique {nd : Yaml} {old a b : List ℤ} (h : FlagsOf nd old a) (h' : FlagsOf nd old b) : a = b := by
  obtain ⟨sy, h1, h2, h3⟩ := h
  obtain ⟨sy', h1', h2', h3'⟩ := h'
  cases h1.symm.trans h1'
  cases hd : sy.isDef with
  | true => exact Option.some.inj ((h2 hd).symm.trans (h2' hd))
  | false => rw [h3 hd, h3' hd]

theorem flags_old {nd : Yaml} {old a : List ℤ} (h : FlagsOf nd old a) : ∃ b, FlagsOf nd [] b := by
  obtain ⟨sy, h1, h2, h3⟩ := h
  cases hd : sy.isDef with
  | true => exact ⟨a, sy, h1, fun _ => h2 hd, fun h => absurd (hd.symm.trans h) (by decide)⟩
  | false => exact ⟨[], sy, h1, fun h => absurd (hd.symm.trans h) (by decide), fun _ => rfl⟩

theorem secOut_ok {c : Cfg} {y nd : Yaml} {f : SField} {s s' : Obj} {fl : List ℤ} {k : ℕ} (h : Has y f nd) (hv : ∀ key ∈ sectionKeys f, HasVec nd key)
    (hf : FlagsOf nd (s.symb f) fl) (hk : ∀ k', Values f nd k' → k' = k) (h1 : ∀ g, g ≠ f.field → s'.vec g = s.vec g)
    (h2 : ∀ g, g ≠ f → s'.symb g = s.symb g) (h3 : s'.symb f = fl) (h4 : (s'.vec f.field).length = reads (fl.take k)) :
    SecOut c y f s (.ok s') := by
  have hw : Whole f nd := ⟨hv, flags_old hf⟩
  refine ⟨⟨nd, h.1, fun _ => hw⟩, h1, h2, fun hno => absurd ⟨nd, h⟩ hno, fun nd' hn => ?_⟩
  cases h.1.symm.trans hn.1
  refine ⟨fun h' => absurd hw h', fun fl' k' _ hfl hk' => ?_⟩
  rw [flags_unique hfl hf, hk k' hk']
  exact ⟨h3, h4⟩

theorem readSymb_cases {nd : Yaml} {f : SField} {s : Obj} {k : Obj → Out} :
    (readSymb nd f s k = .exc s ∧ ¬ ∃ fl, FlagsOf nd [] fl) ∨
    ∃ fl s1, FlagsOf nd (s.symb f) fl ∧ readSymb nd f s k = k s1 ∧ s1.vec = s.vec ∧ s1.symb f = fl ∧ ∀ g, g ≠ f → s1.symb g = s.symb g := by
  unfold readSymb
  cases h : nd.getM "symb" with
  | none => exact Or.inl ⟨rfl, fun ⟨_, _, h', _⟩ => by rw [h] at h'; cases h'⟩
  | some sy =>
    simp only [yaml]
    cases hd : sy.isDef with
    | false => exact Or.inr ⟨s.symb f, s, ⟨sy, h, fun h' => absurd (hd.symm.trans h') (by decide), fun _ => rfl⟩, by simp, rfl, rfl, fun _ _ => rfl⟩
    | true =>
      cases hv : sy.asVec Yaml.asI with
      | none =>
        refine Or.inl ⟨by simp, fun ⟨fl, sy', h1, h2, _⟩ => ?_⟩
        cases h.symm.trans h1
        rw [hv] at h2
        cases h2 hd
      | some fl =>
        exact Or.inr ⟨fl, s.setSymb f fl, ⟨sy, h, fun _ => hv, fun h' => absurd (hd.symm.trans h') (by decide)⟩, by simp, rfl, by simp [Obj.setSymb],
          fun g hg => Function.update_of_ne hg _ _⟩

theorem sec_kin (c : Cfg) (y : Yaml) (s : Obj) : SecOut c y .DH s (loadKin c y s) := by
  unfold loadKin
  cases hk : y.getM "kinematics" with
  | none => exact secOut_none hk
  | some kin =>
    simp only [yaml]
    by_cases hd : kin.isDef = true
    · have hh : Has y .DH kin := ⟨hk, hd⟩
      rw [if_pos hd]
      have hoth : ∀ v g, g ≠ Field.DH → (s.set .DH v).vec g = s.vec g := fun v g hg => set_vec_ne _ _ hg
      cases hdh : (kin.getM "DH").bind (Yaml.asVec Yaml.asD) with
      | none =>
        refine secOut_exc hh (fun hw => ?_) (hoth _) (fun _ _ => rfl) (by rw [show SField.field .DH = .DH from rfl, set_vec_same]; exact length_resize _ _)
        obtain ⟨v, hv⟩ := hw.1 "DH" (by simp [sectionKeys])
        rw [hdh] at hv
        cases hv
      | some dh =>
        simp only
        rcases readSymb_cases (nd := kin) (f := .DH) (s := s.set .DH (resize (s.vec .DH) (c.n * 4))) (k := fun s =>
          must (pick dh (s.symb .DH) 0 dh.length) fun sel => must (setSeg (s.vec .DH) 0 sel) fun v =>
            .ok (s.set .DH (conservativeResize v sel.length))) with ⟨e, hno⟩ | ⟨fl, s1, hfl, e, hvec, hsy, hsyo⟩
        · rw [e]
          exact secOut_exc hh (fun hw => hno hw.2) (hoth _) (fun _ _ => rfl)
            (by rw [show SField.field .DH = .DH from rfl, set_vec_same]; exact length_resize _ _)
        · rw [e]
          cases hp : pick dh (s1.symb .DH) 0 dh.length with
          | none => trivial
          | some r =>
            simp only [must]
            cases hs : setSeg (s1.vec .DH) 0 r with
            | none => trivial
            | some v =>
              have hcount := pick_count hp
              rw [hsy, List.drop_zero] at hcount
              refine secOut_ok (fl := fl) (k := dh.length) hh ?_ hfl ?_ ?_ hsyo hsy ?_
              · intro key hkey
                simp only [sectionKeys, List.mem_singleton] at hkey
                subst hkey
                exact ⟨dh, hdh⟩
              · rintro k' ⟨v', hv', rfl⟩
                cases hdh.symm.trans hv'
                rfl
              · intro g hg
                exact (set_vec_ne (f := .DH) _ _ hg).trans (by rw [hvec, hoth _ g hg])
              · rw [show SField.field .DH = .DH from rfl, set_vec_same, length_conservativeResize, hcount]
    · rw [if_neg hd]
      exact secOut_undef hk hd

theorem sec_frame (c : Cfg) {name : String} {sf : SField} (hname : sectionName sf = name) (hkeys : sectionKeys sf = ["tr", "ypr"])
    (h6 : c.size sf.field = 6) (hval : ∀ nd k, Values sf nd k → k = 6) (y : Yaml) (s : Obj) :
    SecOut c y sf s (loadFrame name sf.field sf y s) := by
  unfold loadFrame
  cases hk : y.getM name with
  | none => exact secOut_none (by rw [hname]; exact hk)
  | some fr =>
    simp only [yaml]
    by_cases hd : fr.isDef = true
    · have hh : Has y sf fr := ⟨by rw [hname]; exact hk, hd⟩
      rw [if_pos hd]
      have hoth : ∀ v g, g ≠ sf.field → (s.set sf.field v).vec g = s.vec g := fun v g hg => set_vec_ne _ _ hg
      rcases readSymb_cases (nd := fr) (f := sf) (s := s.set sf.field (resize (s.vec sf.field) 6)) (k := fun s =>
        yaml ((fr.getM "tr").bind (Yaml.asVec Yaml.asD)) s fun tr =>
        yaml ((fr.getM "ypr").bind (Yaml.asVec Yaml.asD)) s fun ypr =>
        must (pick tr (s.symb sf) 0 3) fun a =>
        must (pick ypr (s.symb sf) 3 3) fun b =>
        must (setSeg (s.vec sf.field) 0 (a ++ b)) fun v =>
        .ok (s.set sf.field (conservativeResize v (a ++ b).length))) with ⟨e, hno⟩ | ⟨fl, s1, hfl, e, hvec, hsy, hsyo⟩
      · simp only [yaml] at e
        rw [e]
        exact secOut_exc hh (fun hw => hno hw.2) (hoth _) (fun _ _ => rfl) (by rw [set_vec_same, length_resize, h6])
      · simp only [yaml] at e
        rw [e]
        have hvo : ∀ g, g ≠ sf.field → s1.vec g = s.vec g := fun g hg => by rw [hvec, hoth _ g hg]
        have hlen : (s1.vec sf.field).length = c.size sf.field := by rw [hvec, set_vec_same, length_resize, h6]
        cases htr : (fr.getM "tr").bind (Yaml.asVec Yaml.asD) with
        | none =>
          refine secOut_exc hh (fun hw => ?_) hvo hsyo hlen
          obtain ⟨v, hv⟩ := hw.1 "tr" (by simp [hkeys])
          rw [htr] at hv
          cases hv
        | some tr =>
          cases hypr : (fr.getM "ypr").bind (Yaml.asVec Yaml.asD) with
          | none =>
            refine secOut_exc hh (fun hw => ?_) hvo hsyo hlen
            obtain ⟨v, hv⟩ := hw.1 "ypr" (by simp [hkeys])
            rw [hypr] at hv
            cases hv
          | some ypr =>
            simp only
            cases ha : pick tr (s1.symb sf) 0 3 with
            | none => trivial
            | some a =>
              cases hb : pick ypr (s1.symb sf) 3 3 with
              | none => trivial
              | some b =>
                simp only [must]
                cases hs : setSeg (s1.vec sf.field) 0 (a ++ b) with
                | none => trivial
                | some v =>
                  have h1 := pick_count ha
                  have h2 := pick_count hb
                  rw [hsy] at h1 h2
                  refine secOut_ok (fl := fl) (k := 6) hh ?_ hfl (fun k' => hval fr k') ?_ hsyo hsy ?_
                  · intro key hkey
                    simp only [hkeys, List.mem_cons, List.not_mem_nil, or_false] at hkey
                    rcases hkey with rfl | rfl
                    · exact ⟨tr, htr⟩
                    · exact ⟨ypr, hypr⟩
                  · intro g hg
                    rw [set_vec_ne _ _ hg, hvo g hg]
                  · rw [set_vec_same, length_conservativeResize, List.length_append, h1, h2, List.drop_zero, ← reads_append]
                    congr 1
                    rw [show 6 = 3 + 3 from rfl, List.take_add]
    · rw [if_neg hd]
      exact secOut_undef (by rw [hname]; exact hk) hd

theorem sec_grav (c : Cfg) (y : Yaml) (s : Obj) : SecOut c y .G s (loadGrav y s) := by
  unfold loadGrav
  cases hk : y.getM "gravity" with
  | none => exact secOut_none hk
  | some gr =>
    simp only [yaml]
    by_cases hd : gr.isDef = true
    · have hh : Has y .G gr := ⟨hk, hd⟩
      rw [if_pos hd]
      have hoth : ∀ v g, g ≠ Field.G → (s.set .G v).vec g = s.vec g := fun v g hg => set_vec_ne _ _ hg
      rcases readSymb_cases (nd := gr) (f := .G) (s := s.set .G (resize (s.vec .G) 3)) (k := fun s =>
        yaml ((gr.getM "value").bind (Yaml.asVec Yaml.asD)) s fun g =>
        must (pick g (s.symb .G) 0 3) fun sel =>
        must (setSeg (s.vec .G) 0 sel) fun v =>
        .ok (s.set .G (conservativeResize v sel.length))) with ⟨e, hno⟩ | ⟨fl, s1, hfl, e, hvec, hsy, hsyo⟩
      · simp only [yaml] at e
        rw [e]
        exact secOut_exc hh (fun hw => hno hw.2) (hoth _) (fun _ _ => rfl)
          (by rw [show SField.field .G = .G from rfl, set_vec_same]; exact length_resize _ _)
      · simp only [yaml] at e
        rw [e]
        have hvo : ∀ g, g ≠ Field.G → s1.vec g = s.vec g := fun g hg => by rw [hvec, hoth _ g hg]
        have hlen : (s1.vec .G).length = c.size .G := by rw [hvec, set_vec_same]; exact length_resize _ _
        cases hval : (gr.getM "value").bind (Yaml.asVec Yaml.asD) with
        | none =>
          refine secOut_exc hh (fun hw => ?_) hvo hsyo hlen
          obtain ⟨v, hv⟩ := hw.1 "value" (by simp [sectionKeys])
          rw [hval] at hv
          cases hv
        | some g =>
          simp only
          cases ha : pick g (s1.symb .G) 0 3 with
          | none => trivial
          | some a =>
            simp only [must]
            cases hs : setSeg (s1.vec .G) 0 a with
            | none => trivial
            | some v =>
              have h1 := pick_count ha
              rw [hsy, List.drop_zero] at h1
              refine secOut_ok (fl := fl) (k := 3) hh ?_ hfl (fun k' h' => h') ?_ hsyo hsy ?_
              · intro key hkey
                simp only [sectionKeys, List.mem_singleton] at hkey
                subst hkey
                exact ⟨g, hval⟩
              · intro g hg
                exact (set_vec_ne (f := .G) _ _ hg).trans (hvo g hg)
              · rw [show SField.field .G = .G from rfl, set_vec_same, length_conservativeResize, h1]
    · rw [if_neg hd]
      exact secOut_undef hk hd

/-- Same kinematic members and flags. -/
def Same (s s' : Obj) : Prop := ∀ f : SField, s'.vec f.field = s.vec f.field ∧ s'.symb f = s.symb f

theorem Same.refl (s : Obj) : Same s s := fun _ => ⟨rfl, rfl⟩
theorem Same.set {s s' : Obj} (h : Same s s') {g : Field} {v : List Num} (hg : ∀ f : SField, f.field ≠ g) : Same s (s'.set g v) :=
  fun f => ⟨(set_vec_ne _ _ (hg f)).trans (h f).1, (h f).2⟩

theorem same_dynLoop {c : Cfg} {s0 : Obj} : ∀ (l : List (Option String × Yaml)) (i : ℕ) (s : Obj), Same s0 s → (dynLoop c l i s).All (Same s0)
  | [], _, _, h => h
  | (key, nd) :: rest, i, s, h => by
    unfold dynLoop
    split
    · exact h
    · refine all_yaml h fun _ _ => all_yaml h fun _ _ => all_yaml h fun _ _ => all_must fun v _ => ?_
      have h1 : Same s0 (s.set .DYN v) := h.set (by rintro (_ | _) <;> decide)
      refine all_yaml h1 fun fric _ => ?_
      split
      · exact all_yaml h1 fun dl _ => all_must fun u _ => same_dynLoop rest _ _ (h1.set (by rintro (_ | _) <;> decide))
      · exact same_dynLoop rest _ _ h1

theorem same_updateREG {c : Cfg} {s0 s : Obj} (h : Same s0 s) : (updateREG c s).All (Same s0) := by
  unfold updateREG
  split
  · trivial
  · exact all_must fun v _ => h.set (by rintro (_ | _) <;> decide)

theorem same_readOrd {ord i : ℕ} {key : String} {f : Field} {nd : Yaml} {s0 s : Obj} {k : Obj → Out} (hf : ∀ g : SField, g.field ≠ f)
    (h : Same s0 s) (hk : ∀ s, Same s0 s → (k s).All (Same s0)) : (readOrd ord i key f nd s k).All (Same s0) := by
  unfold readOrd
  split
  · exact hk s h
  · exact all_yaml h fun xs _ => all_must fun v _ => hk _ (h.set hf)

theorem same_elaLoop {c : Cfg} {s0 : Obj} : ∀ (l : List (Option String × Yaml)) (i : ℕ) (s : Obj), Same s0 s → (elaLoop c l i s).All (Same s0)
  | [], _, _, h => h
  | (key, nd) :: rest, i, s, h => by
    unfold elaLoop
    split
    · exact h
    · refine all_yaml h fun _ _ => ?_
      refine same_readOrd (by rintro (_ | _) <;> decide) h fun s h => ?_
      refine same_readOrd (by rintro (_ | _) <;> decide) h fun s h => ?_
      refine same_readOrd (by rintro (_ | _) <;> decide) h fun s h => ?_
      exact all_yaml h fun m _ => all_must fun v _ => same_elaLoop rest _ _ (h.set (by rintro (_ | _) <;> decide))

theorem same_loadEla {c : Cfg} {y : Yaml} {s0 s : Obj} (h : Same s0 s) : (loadEla c y s).All (Same s0) := by
  unfold loadEla
  refine all_yaml h fun el _ => ?_
  split
  · exact all_yaml h fun js _ => same_elaLoop _ _ _ h
  · exact h

/-- The part for the links. -/
def DynOut (c : Cfg) (y : Yaml) (s : Obj) : Out → Prop
  | .ok s' => LinksPass c.n y ∧ Same s s'
  | .exc s' => ¬ LinksPass c.n y ∧ Same s s'
  | .ub => True

theorem dyn_out (c : Cfg) (u : Bool) (y : Yaml) (s : Obj) : DynOut c y s (loadDyn c u y s) := by
  unfold loadDyn
  cases hk : y.getM "dynamics" with
  | none =>
    refine ⟨fun ⟨nd, h, _⟩ => ?_, Same.refl s⟩
    rw [hk] at h; cases h
  | some dyn =>
    simp only [yaml]
    by_cases hd : dyn.isDef = true
    · rw [if_pos hd]
      have hlink : (∃ L, (dyn.items.take (c.n - 0)).mapM readDynLink = some L) ↔ ∀ x ∈ dyn.items.take c.n, LinkPasses x := by
        rw [mapM_isSome, Nat.sub_zero]
        exact forall₂_congr fun x _ => readDynLink_iff.trans linkPasses_iff.symm
      have hsame := same_dynLoop (c := c) dyn.items 0 s (Same.refl s)
      cases ho : dynLoop c dyn.items 0 s with
      | ok s1 =>
        rw [ho] at hsame
        have hread := hlink.1 (dynLoop_readable dyn.items 0 s s1 (Nat.zero_le _) ho)
        have hp : LinksPass c.n y := ⟨dyn, hk, fun _ => hread⟩
        simp only [Out.bind]
        cases u with
        | false => exact ⟨hp, hsame⟩
        | true =>
          rw [if_pos rfl]
          have := same_updateREG (c := c) (s0 := s) (s := s1) hsame
          unfold updateREG at this ⊢
          split
          · trivial
          · rw [if_neg (by assumption)] at this
            revert this
            cases setSeg (s1.vec .REG) 0 (regOfDynW c.n (s1.vec .DYN)) with
            | none => exact fun _ => trivial
            | some v => exact fun h => ⟨hp, h⟩
      | exc s1 =>
        rw [ho] at hsame
        refine ⟨fun ⟨nd, h, h'⟩ => ?_, hsame⟩
        cases hk.symm.trans h
        exact dynLoop_unreadable dyn.items 0 s s1 (Nat.zero_le _) ho (hlink.2 (h' hd))
      | ub => trivial
    · rw [if_neg hd]
      exact ⟨⟨dyn, hk, fun h => absurd h hd⟩, Same.refl s⟩

/-- What `load_conf` does to a kinematic member. -/
def Eff (c : Cfg) (y : Yaml) (f : SField) (s s' : Obj) : Prop :=
  ((¬ Reached c.n y f ∨ ¬ ∃ nd, Has y f nd) → s'.vec f.field = s.vec f.field ∧ s'.symb f = s.symb f) ∧
  ∀ nd, Reached c.n y f → Has y f nd → (¬ Whole f nd → (s'.vec f.field).length = c.size f.field) ∧
    ∀ fl k, Whole f nd → FlagsOf nd (s.symb f) fl → Values f nd k → s'.symb f = fl ∧ (s'.vec f.field).length = reads (fl.take k)

theorem eff_skip {c : Cfg} {y : Yaml} {f : SField} {s s' : Obj} (h : ¬ Reached c.n y f) (h1 : s'.vec f.field = s.vec f.field)
    (h2 : s'.symb f = s.symb f) : Eff c y f s s' := ⟨fun _ => ⟨h1, h2⟩, fun _ hr => absurd hr h⟩

theorem eff_sec {c : Cfg} {y : Yaml} {f : SField} {s s' a b : Obj} (hr : Reached c.n y f) (h : SecEff c y f a b)
    (h1 : a.vec f.field = s.vec f.field ∧ a.symb f = s.symb f) (h2 : s'.vec f.field = b.vec f.field ∧ s'.symb f = b.symb f) : Eff c y f s s' := by
  refine ⟨?_, fun nd _ hn => ?_⟩
  · rintro (h' | h')
    · exact absurd hr h'
    · obtain ⟨e1, e2⟩ := h.2.2.1 h'
      exact ⟨h2.1.trans (e1.trans h1.1), h2.2.trans (e2.trans h1.2)⟩
  · have := h.2.2.2 nd hn
    rw [h1.2, ← h2.1, ← h2.2] at this
    exact this

theorem SecEff.other {c : Cfg} {y : Yaml} {f g : SField} {s s' : Obj} (h : SecEff c y f s s') (hg : g ≠ f) :
    s'.vec g.field = s.vec g.field ∧ s'.symb g = s.symb g :=
  ⟨h.1 _ (by cases f <;> cases g <;> first | exact absurd rfl hg | decide), h.2.1 g hg⟩

theorem chain {s0 s1 s2 : Obj} {g : SField} (h : s2.vec g.field = s1.vec g.field ∧ s2.symb g = s1.symb g)
    (h' : s1.vec g.field = s0.vec g.field ∧ s1.symb g = s0.symb g) : s2.vec g.field = s0.vec g.field ∧ s2.symb g = s0.symb g :=
  ⟨h.1.trans h'.1, h.2.trans h'.2⟩

theorem load_eff (c : Cfg) (u : Bool) (y : Yaml) (s : Obj) : (loadBody c u y s).All fun s' => ∀ f, Eff c y f s s' := by
  unfold loadBody
  have k1 := sec_kin c y s
  revert k1
  cases loadKin c y s with
  | ub => exact fun _ => trivial
  | exc s1 =>
    rintro ⟨n1, e1⟩ f
    cases f with
    | DH => exact eff_sec trivial e1 ⟨rfl, rfl⟩ ⟨rfl, rfl⟩
    | W2L => exact eff_skip n1 (e1.other (by decide)).1 (e1.other (by decide)).2
    | EE => exact eff_skip (fun h => n1 h.1) (e1.other (by decide)).1 (e1.other (by decide)).2
    | G => exact eff_skip (fun h => n1 h.1) (e1.other (by decide)).1 (e1.other (by decide)).2
  | ok s1 =>
    rintro ⟨n1, e1⟩
    simp only [Out.bind]
    have k2 := sec_frame c (name := "Base_to_L0") (sf := .W2L) rfl rfl rfl (fun _ _ h => h) y s1
    revert k2
    rw [show SField.field .W2L = Field.W2L from rfl]
    cases loadFrame "Base_to_L0" .W2L .W2L y s1 with
    | ub => exact fun _ => trivial
    | exc s2 =>
      rintro ⟨n2, e2⟩ f
      cases f with
      | DH => exact eff_sec trivial e1 ⟨rfl, rfl⟩ (e2.other (by decide))
      | W2L => exact eff_sec n1 e2 (e1.other (by decide)) ⟨rfl, rfl⟩
      | EE =>
        have := chain (e2.other (g := .EE) (by decide)) (e1.other (by decide))
        exact eff_skip (fun h => n2 h.2) this.1 this.2
      | G =>
        have := chain (e2.other (g := .G) (by decide)) (e1.other (by decide))
        exact eff_skip (fun h => n2 h.2.1) this.1 this.2
    | ok s2 =>
      rintro ⟨n2, e2⟩
      simp only
      have k3 := sec_frame c (name := "Ln_to_EE") (sf := .EE) rfl rfl rfl (fun _ _ h => h) y s2
      revert k3
      rw [show SField.field .EE = Field.EE from rfl]
      cases loadFrame "Ln_to_EE" .EE .EE y s2 with
      | ub => exact fun _ => trivial
      | exc s3 =>
        rintro ⟨n3, e3⟩ f
        cases f with
        | DH => exact eff_sec trivial e1 ⟨rfl, rfl⟩ (chain (e3.other (by decide)) (e2.other (by decide)))
        | W2L => exact eff_sec n1 e2 (e1.other (by decide)) (e3.other (by decide))
        | EE => exact eff_sec ⟨n1, n2⟩ e3 (chain (e2.other (by decide)) (e1.other (by decide))) ⟨rfl, rfl⟩
        | G =>
          have := chain (e3.other (g := .G) (by decide)) (chain (e2.other (g := .G) (by decide)) (e1.other (by decide)))
          exact eff_skip (fun h => n3 h.2.2.1) this.1 this.2
      | ok s3 =>
        rintro ⟨n3, e3⟩
        simp only
        have k4 := dyn_out c u y s3
        revert k4
        cases loadDyn c u y s3 with
        | ub => exact fun _ => trivial
        | exc s4 =>
          rintro ⟨n4, e4⟩ f
          cases f with
          | DH => exact eff_sec trivial e1 ⟨rfl, rfl⟩ (chain (e4 .DH) (chain (e3.other (by decide)) (e2.other (by decide))))
          | W2L => exact eff_sec n1 e2 (e1.other (by decide)) (chain (e4 .W2L) (e3.other (by decide)))
          | EE => exact eff_sec ⟨n1, n2⟩ e3 (chain (e2.other (by decide)) (e1.other (by decide))) (e4 .EE)
          | G =>
            have := chain (e4 .G) (chain (e3.other (g := .G) (by decide)) (chain (e2.other (g := .G) (by decide)) (e1.other (by decide))))
            exact eff_skip (fun h => n4 h.2.2.2) this.1 this.2
        | ok s4 =>
          rintro ⟨n4, e4⟩
          simp only
          have k5 := sec_grav c y s4
          have fin : ∀ {s5 s6 : Obj}, SecEff c y .G s4 s5 → Same s5 s6 → ∀ f, Eff c y f s s6 := by
            intro s5 s6 e5 e6 f
            cases f with
            | DH => exact eff_sec trivial e1 ⟨rfl, rfl⟩ (chain (e6 .DH) (chain (e5.other (by decide)) (chain (e4 .DH)
                (chain (e3.other (by decide)) (e2.other (by decide))))))
            | W2L => exact eff_sec n1 e2 (e1.other (by decide)) (chain (e6 .W2L) (chain (e5.other (by decide)) (chain (e4 .W2L) (e3.other (by decide)))))
            | EE => exact eff_sec ⟨n1, n2⟩ e3 (chain (e2.other (by decide)) (e1.other (by decide))) (chain (e6 .EE) (chain (e5.other (by decide)) (e4 .EE)))
            | G => exact eff_sec ⟨n1, n2, n3, n4⟩ e5 (chain (e4 .G) (chain (e3.other (by decide)) (chain (e2.other (by decide)) (e1.other (by decide))))) (e6 .G)
          revert k5
          cases loadGrav y s4 with
          | ub => exact fun _ => trivial
          | exc s5 => exact fun k5 => fin k5.2 (Same.refl s5)
          | ok s5 =>
            rintro ⟨-, e5⟩
            have k6 := same_loadEla (c := c) (y := y) (Same.refl s5)
            revert k6
            simp only
            cases loadEla c y s5 with
            | ub => exact fun _ => trivial
            | exc s6 => exact fun e6 => fin e5 e6
            | ok s6 => exact fun e6 => fin e5 e6

/-- Same lengths and flags. -/
def SameLen (s s' : Obj) : Prop := ∀ f : SField, (s'.vec f.field).length = (s.vec f.field).length ∧ s'.symb f = s.symb f

theorem SameLen.refl (s : Obj) : SameLen s s := fun _ => ⟨rfl, rfl⟩
theorem SameLen.set {s0 s : Obj} (h : SameLen s0 s) {g : Field} {v : List Num} (hv : (∃ f : SField, f.field = g) → v.length = (s.vec g).length) :
    SameLen s0 (s.set g v) := by
  intro f
  refine ⟨?_, (h f).2⟩
  by_cases e : f.field = g
  · subst e
    rw [set_vec_same, hv ⟨f, rfl⟩]
    exact (h f).1
  · rw [set_vec_ne _ _ e]
    exact (h f).1

theorem sameLen_of_same {s s' : Obj} (h : Same s s') : SameLen s s' := fun f => ⟨congrArg _ (h f).1, (h f).2⟩

theorem same_updateDYN {c : Cfg} {s0 s : Obj} (h : SameLen s0 s) : (updateDYN c s).All (SameLen s0) := by
  unfold updateDYN
  split
  · trivial
  · exact all_must fun v _ => h.set (fun ⟨f, hf⟩ => by cases f <;> cases hf)

theorem sameLen_updateREG {c : Cfg} {s0 s : Obj} (h : SameLen s0 s) : (updateREG c s).All (SameLen s0) := by
  unfold updateREG
  split
  · trivial
  · exact all_must fun v _ => h.set (fun ⟨f, hf⟩ => by cases f <;> cases hf)

theorem sameLen_regLoop {c : Cfg} {s0 : Obj} : ∀ (l : List (Option String × Yaml)) (i : ℕ) (s : Obj), SameLen s0 s → (regLoop c l i s).All (SameLen s0)
  | [], _, _, h => h
  | (key, nd) :: rest, i, s, h => by
    unfold regLoop
    split
    · exact h
    · exact all_yaml h fun _ _ => all_yaml h fun _ _ => all_yaml h fun _ _ => all_must fun v _ =>
        sameLen_regLoop rest _ _ (h.set (fun ⟨f, hf⟩ => by cases f <;> cases hf))

/-- The other calls do not change the length of a kinematic member. -/
theorem length_other {c : Cfg} {s s' : Obj} {k : Call} (hk : ∀ f u, k ≠ .loadConf f u) (hk' : k ≠ .resizeVariables)
    (e : k.run c s = some s') : SameLen s s' := by
  cases k with
  | setVar f v =>
    refine Out.All.caught (o := setVar c f v s) (P := SameLen s) ?_ e
    unfold setVar
    split
    · exact (SameLen.refl s).set (fun ⟨g, hg⟩ => by cases f <;> cases g <;> cases hg)
    · exact SameLen.refl s
  | setPar f v =>
    refine Out.All.caught (o := setPar f v s) (P := SameLen s) ?_ e
    unfold setPar
    split
    · next hv => exact (SameLen.refl s).set fun _ => hv
    · exact SameLen.refl s
  | setArguments a b d g =>
    refine Out.All.caught (o := setArguments c a b d g s) (P := SameLen s) ?_ e
    unfold setArguments
    split
    · exact ((((SameLen.refl s).set (fun ⟨g, hg⟩ => by cases g <;> cases hg)).set (fun ⟨g, hg⟩ => by cases g <;> cases hg)).set
        (fun ⟨g, hg⟩ => by cases g <;> cases hg)).set (fun ⟨g, hg⟩ => by cases g <;> cases hg)
    · exact SameLen.refl s
  | setDH k v =>
    refine Out.All.caught (o := setDH k v s) (P := SameLen s) ?_ e
    unfold setDH
    split
    · next hv =>
      split
      · exact (SameLen.refl s).set fun _ => hv
      · trivial
    · exact SameLen.refl s
  | setDYN v u =>
    refine Out.All.caught (o := setDYN c v u s) (P := SameLen s) ?_ e
    unfold setDYN
    have h1 : SameLen s (if v.length = (s.vec .DYN).length then s.set .DYN v else s) := by
      split
      · next hv => exact (SameLen.refl s).set fun _ => hv
      · exact SameLen.refl s
    cases u
    · exact h1
    · exact sameLen_updateREG h1
  | setREG v u =>
    refine Out.All.caught (o := setREG c v u s) (P := SameLen s) ?_ e
    unfold setREG
    have h1 : SameLen s (if v.length = (s.vec .REG).length then s.set .REG v else s) := by
      split
      · next hv => exact (SameLen.refl s).set fun _ => hv
      · exact SameLen.refl s
    cases u
    · exact h1
    · exact same_updateDYN h1
  | loadREG f u =>
    refine Out.All.caught (P := SameLen s) ?_ (show Out.caught _ = some s' from e)
    refine all_yaml (SameLen.refl s) fun config _ => all_yaml (SameLen.refl s) fun dyn _ => ?_
    split
    · refine (sameLen_regLoop _ _ _ (SameLen.refl s)).bind (fun _ h => h) fun s h => ?_
      split
      · exact same_updateDYN h
      · exact h
    · exact SameLen.refl s
  | loadConf f u => exact absurd rfl (hk f u)
  | resizeVariables => exact absurd rfl hk'

end Thunder.Wrap
