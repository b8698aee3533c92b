import Verif.Lemmas.WrapperOver
import Verif.Props.WrapperBuf

/-!
# C33: the exact conditions

For every call, of which length the kinematic members are afterwards, and when these lengths suffice for the generated code.  The files are arbitrary.
-/

namespace Thunder.Wrap

open Spec

/-- **C33**: what `load_conf` does to each kinematic member, in any reachable state and for any file it can treat without an access outside a vector.
A section that is absent or not reached leaves the member and its flags as they are.  A section that is entered and cannot be read to the end leaves the
member with its full size.  A section that is read to the end leaves one entry for each value whose flag is set, and the flags of the section (or those used
so far if it has none). -/
theorem C33_load_conf (c : Cfg) {s s' : Obj} (y : Yaml) (u : Bool) (e : (Call.loadConf (some y) u).run c s = some s') (f : SField) :
    ((¬ Reached c.n y f ∨ ¬ ∃ nd, Has y f nd) → s'.vec (flagged f) = s.vec (flagged f) ∧ s'.symb f = s.symb f) ∧
    ∀ nd, Reached c.n y f → Has y f nd →
      (¬ Whole f nd → (s'.vec (flagged f)).length = c.size (flagged f)) ∧
      ∀ fl k, Whole f nd → FlagsOf nd (s.symb f) fl → Values f nd k → s'.symb f = fl ∧ (s'.vec (flagged f)).length = reads (fl.take k) := by
  rw [flagged_eq]
  exact Out.All.caught (P := fun s' => ∀ f, Eff c y f s s') (load_eff c u y s) e f

theorem flags_exist {nd : Yaml} {fl : List ℤ} (old : List ℤ) (h : FlagsOf nd [] fl) : ∃ fl, FlagsOf nd old fl := by
  obtain ⟨sy, h1, h2, h3⟩ := h
  cases hd : sy.isDef with
  | true => exact ⟨fl, sy, h1, fun _ => h2 hd, fun h => absurd (hd.symm.trans h) (by decide)⟩
  | false => exact ⟨old, sy, h1, fun h => absurd (hd.symm.trans h) (by decide), fun _ => rfl⟩

theorem values_exist {f : SField} {nd : Yaml} (h : Whole f nd) : ∃ k, Values f nd k := by
  cases f with
  | DH =>
    obtain ⟨v, hv⟩ := h.1 "DH" (by simp [sectionKeys])
    exact ⟨v.length, v, hv, rfl⟩
  | G => exact ⟨3, rfl⟩
  | W2L => exact ⟨6, rfl⟩
  | EE => exact ⟨6, rfl⟩

/-- **C33**: exactly when the members still suffice after `load_conf`.  If they sufficed before, they suffice afterwards exactly when every section that is
reached, present and read to the end marks at least as many values as the code was generated for. -/
theorem C33_iff (c : Cfg) (pat : Field → List ℤ) (hp : ∀ f, (pat f).length = c.size f) {s s' : Obj}
    (hs : ∀ f, reads (pat (flagged f)) ≤ (s.vec (flagged f)).length) (y : Yaml) (u : Bool) (e : (Call.loadConf (some y) u).run c s = some s') :
    (∀ f, reads (pat (flagged f)) ≤ (s'.vec (flagged f)).length) ↔
    ∀ f nd fl k, Reached c.n y f → Has y f nd → Whole f nd → FlagsOf nd (s.symb f) fl → Values f nd k → reads (pat (flagged f)) ≤ reads (fl.take k) := by
  constructor
  · intro h f nd fl k hr hn hw hfl hk
    rw [← (((C33_load_conf c y u e f).2 nd hr hn).2 fl k hw hfl hk).2]
    exact h f
  · intro h f
    obtain ⟨h1, h2⟩ := C33_load_conf c y u e f
    by_cases hc : ¬ Reached c.n y f ∨ ¬ ∃ nd, Has y f nd
    · rw [(h1 hc).1]
      exact hs f
    · push Not at hc
      obtain ⟨hr, nd, hn⟩ := hc
      by_cases hw : Whole f nd
      · obtain ⟨fl0, hfl0⟩ := hw.2
        obtain ⟨fl, hfl⟩ := flags_exist (s.symb f) hfl0
        obtain ⟨k, hk⟩ := values_exist hw
        rw [((h2 nd hr hn).2 fl k hw hfl hk).2]
        exact h f nd fl k hr hn hw hfl hk
      · rw [(h2 nd hr hn).1 hw, ← hp]
        exact reads_le _

/-- **C33**: no other call changes the length or the flags of a kinematic member, except that `resizeVariables` gives it its full size and clears the
flags. -/
theorem C33_others (c : Cfg) {s s' : Obj} (k : Call) (hk : ∀ f u, k ≠ .loadConf f u) (e : k.run c s = some s') (f : SField) :
    (k ≠ .resizeVariables → (s'.vec (flagged f)).length = (s.vec (flagged f)).length ∧ s'.symb f = s.symb f) ∧
    (k = .resizeVariables → (s'.vec (flagged f)).length = c.size (flagged f) ∧ s'.symb f = List.replicate (c.size (flagged f)) 0) := by
  rw [flagged_eq]
  refine ⟨fun hk' => length_other hk hk' e f, fun h => ?_⟩
  subst h
  cases e
  refine ⟨by simp [init], ?_⟩
  rw [← symbSize_eq]
  rfl

/-- **C33**: for every history of calls with arbitrary files that makes no access outside a vector.  Every other member has its full size, and a kinematic
member has either its full size or one entry for each of the first values whose flag is set in the object. -/
theorem C33_any (c : Cfg) (ks : List Call) {s : Obj} (e : runAll c ks (init c) = some s) :
    (∀ g, (∀ f, flagged f ≠ g) → (s.vec g).length = c.size g) ∧
    ∀ f, (s.vec (flagged f)).length = c.size (flagged f) ∨ ∃ k, (s.vec (flagged f)).length = reads ((s.symb f).take k) := by
  refine ⟨fun g hg => sized_runAll ks (sized_init c) e g ?_, ?_⟩
  · intro hc
    cases g <;> first | exact hc | exact hg .DH rfl | exact hg .G rfl | exact hg .W2L rfl | exact hg .EE rfl
  · have gen : ∀ (ks : List Call) {s0 s : Obj}, runAll c ks s0 = some s →
        (∀ f, (s0.vec (flagged f)).length = c.size (flagged f) ∨ ∃ k, (s0.vec (flagged f)).length = reads ((s0.symb f).take k)) →
        ∀ f, (s.vec (flagged f)).length = c.size (flagged f) ∨ ∃ k, (s.vec (flagged f)).length = reads ((s.symb f).take k) := by
      intro ks
      induction ks with
      | nil => intro s0 s e h; cases e; exact h
      | cons k ks ih =>
        intro s0 s e h
        obtain ⟨s1, e1, e2⟩ := Option.bind_eq_some_iff.1 e
        refine ih e2 fun f => ?_
        by_cases hl : ∃ y u, k = .loadConf y u
        · obtain ⟨y, u, rfl⟩ := hl
          cases y with
          | none => cases e1; exact h f
          | some y =>
            obtain ⟨h1, h2⟩ := C33_load_conf c y u e1 f
            by_cases hc : ¬ Reached c.n y f ∨ ¬ ∃ nd, Has y f nd
            · rw [(h1 hc).1, (h1 hc).2]
              exact h f
            · push Not at hc
              obtain ⟨hr, nd, hn⟩ := hc
              by_cases hw : Whole f nd
              · obtain ⟨fl0, hfl0⟩ := hw.2
                obtain ⟨fl, hfl⟩ := flags_exist (s0.symb f) hfl0
                obtain ⟨k, hk⟩ := values_exist hw
                obtain ⟨e3, e4⟩ := (h2 nd hr hn).2 fl k hw hfl hk
                exact Or.inr ⟨k, by rw [e3, e4]⟩
              · exact Or.inl ((h2 nd hr hn).1 hw)
        · have := C33_others c k (fun y u h => hl ⟨y, u, h⟩) e1 f
          by_cases hr : k = .resizeVariables
          · exact Or.inl (this.2 hr).1
          · rw [(this.1 hr).1, (this.1 hr).2]
            exact h f
    exact gen ks e fun f => Or.inl (by simp [init])

/-- **C33**: exactly which calls make an access outside a vector, in any reachable state: `set_par_DHtable` with a matrix of the right number of entries and
more than one column, and `load_conf` with a file in which a section that is reached has too few flags or too few values for them (or marks more entries
of the DH table than there are), or a link or motor has too few coefficients. -/
theorem C33_access_iff (c : Cfg) (ks : List Call) {s : Obj} (e : runAll c ks (init c) = some s) (k : Call) : k.run c s = none ↔
    (∃ y u, k = .loadConf (some y) u ∧ LoadOverruns c s.symb y) ∨ ∃ cols v, k = .setDH cols v ∧ cols ≠ 1 ∧ v.length = (s.vec .DH).length :=
  ub_call (sized_runAll ks (sized_init c) e) k

namespace Ex

/-- A section `kinematics` with a table of two joints, and no flags. -/
noncomputable def longKin : Yaml := .map [(some "DH", Yaml.ofVec [some 0, some 0, some 0, some 0, some 0, some 0, some 0, some 0])]

/-- Giving it to a new object of a robot with one joint makes an access outside the vector of flags. -/
example : LoadOverruns cB (init cB).symb (.map [(some "kinematics", longKin)]) ∧
    (Call.loadConf (some (.map [(some "kinematics", longKin)])) true).run cB (init cB) = none := by
  have hv : (longKin.getM "DH").bind (Yaml.asVec Yaml.asD) = some [some 0, some 0, some 0, some 0, some 0, some 0, some 0, some 0] := by
    simp [longKin, Yaml.getM, Yaml.lookup, Yaml.ofVec, Yaml.asVec, Yaml.ofD, Yaml.asD]
  have hf : ∀ old, FlagsOf longKin old old := fun old => ⟨.undef, by simp [longKin, Yaml.getM, Yaml.lookup], fun h => by simp [Yaml.isDef] at h, fun _ => rfl⟩
  have hl : LoadOverruns cB (init cB).symb (.map [(some "kinematics", longKin)]) := by
    refine Or.inl ⟨.DH, longKin, _, trivial, ⟨by simp [sectionName, Yaml.getM, Yaml.lookup], rfl⟩, ⟨fun key hkey => ?_, _, hf []⟩, hf _, _, hv, Or.inl ?_⟩
    · simp only [sectionKeys, List.mem_singleton] at hkey
      subst hkey
      exact ⟨_, hv⟩
    · simp [init, Cfg.symbSize, cB]
  exact ⟨hl, (C33_access_iff cB [] rfl _).2 (Or.inl ⟨_, _, rfl, hl⟩)⟩

/-- The section `kinematics` of the file of `C33_fails`. -/
noncomputable def otherKin : Yaml :=
  .map [(some "DH", Yaml.ofVec [some 0, some 0, some 0, some 0]), (some "symb", .seq [ofI 0, ofI 0, ofI 0, ofI 0])]

theorem otherKin_vec : (otherKin.getM "DH").bind (Yaml.asVec Yaml.asD) = some [some 0, some 0, some 0, some 0] := by
  simp [otherKin, Yaml.getM, Yaml.lookup, Yaml.ofVec, Yaml.asVec, Yaml.ofD, Yaml.asD]

theorem otherKin_flags (old : List ℤ) : FlagsOf otherKin old [0, 0, 0, 0] := by
  refine ⟨.seq [ofI 0, ofI 0, ofI 0, ofI 0], by simp [otherKin, Yaml.getM, Yaml.lookup], fun _ => ?_, fun h => by simp [Yaml.isDef] at h⟩
  simp [Yaml.asVec, ofI, Yaml.asI]

/-- The file of `C33_fails` in terms of `C33_iff`: its section `kinematics` can be read to the end and marks nothing; its section `Base_to_L0` is null, so
that it is entered and cannot be read. -/
example : (∃ s', (Call.loadConf (some otherFile) true).run cB (init cB) = some s') ∧ Reached cB.n otherFile .DH ∧ Has otherFile .DH otherKin ∧
    Whole .DH otherKin ∧ FlagsOf otherKin ((init cB).symb .DH) [0, 0, 0, 0] ∧ Values .DH otherKin 4 ∧ ¬ reads (allOnes .DH) ≤ reads [0, 0, 0, 0] ∧
    Reached cB.n otherFile .W2L ∧ Has otherFile .W2L .null ∧ ¬ Whole .W2L .null ∧ ¬ Reached cB.n otherFile .EE := by
  have h := other_load true (init cB) (by simp [init, Cfg.size, cB])
  have hg : otherFile.getM "kinematics" = some otherKin := by simp [otherFile, otherKin, Yaml.getM, Yaml.lookup]
  have hb : otherFile.getM "Base_to_L0" = some .null := by simp [otherFile, Yaml.getM, Yaml.lookup]
  have hw : Whole .DH otherKin := by
    refine ⟨fun key hkey => ?_, _, otherKin_flags []⟩
    simp only [sectionKeys, List.mem_singleton] at hkey
    subst hkey
    exact ⟨_, otherKin_vec⟩
  have hn : ¬ Whole .W2L .null := by
    rintro ⟨h1, -⟩
    obtain ⟨v, hv⟩ := h1 "tr" (by simp [sectionKeys])
    simp [Yaml.getM, Yaml.asVec] at hv
  refine ⟨⟨_, by simp only [Call.run, loadConf, yaml, h, Out.caught]; rfl⟩, trivial, ⟨hg, rfl⟩, hw, otherKin_flags _, ⟨_, otherKin_vec, rfl⟩, ?_,
    ⟨_, hg, fun _ => hw⟩, ⟨hb, rfl⟩, hn, ?_⟩
  · simp [reads, allOnes, Cfg.size, cB, List.replicate]
  · rintro ⟨-, nd, h1, h2⟩
    cases hb.symm.trans h1
    exact hn (h2 rfl)

end Ex

end Thunder.Wrap
