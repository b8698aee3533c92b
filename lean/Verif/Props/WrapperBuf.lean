import Verif.Lemmas.WrapperBuf

/-!
# C33: sizes of the buffers the generated code reads

`pat f` lists, entry by entry, which entries of the member `f` were symbolic when the code was generated; the generated code reads
`Spec.reads (pat f)` entries from it.

Full statement (false, see `C33_fails`): the sizes suffice in every reachable state if every *successfully* loaded file has the pattern `pat`.
Missing in `C33_partial`: files of another pattern on which `load_conf` fails half-way.  `Props/WrapperLen.lean` gives the exact conditions for arbitrary
files.
-/

namespace Thunder.Wrap

/-- **C33** (partial).  For every history of calls in which every file given to `load_conf` is for this robot and its pattern (the load may
succeed or fail, the file may be missing), there is no access outside a vector, and afterwards every member has at least as many entries as the
generated code reads. -/
theorem C33_partial (c : Cfg) (pat : Field → List ℤ) (hp : ∀ f, (pat f).length = c.size f) (ks : List Call) (hk : ∀ k ∈ ks, k.For c pat) :
    ∃ s, runAll c ks (init c) = some s ∧ ∀ f, Spec.reads (pat f) ≤ (s.vec f).length := by
  obtain ⟨s, e, h⟩ := buf_runAll hp ks hk (buf_init hp)
  exact ⟨s, e, h.big⟩

namespace Ex

/-- Robot with one joint, every parameter symbolic. -/
def cB : Cfg := ⟨1, 0, 0, 0, 0, 0⟩
def allOnes (f : Field) : List ℤ := List.replicate (cB.size f) 1

/-- `YAML` scalar of an integer. -/
def ofI (i : ℤ) : Yaml := .scalar ⟨"", none, some i, none⟩

/-- A file that marks no entry of the DH table as symbolic and whose section `Base_to_L0` is empty. -/
noncomputable def otherFile : Yaml :=
  .map [(some "kinematics", .map [(some "DH", Yaml.ofVec [some 0, some 0, some 0, some 0]), (some "symb", .seq [ofI 0, ofI 0, ofI 0, ofI 0])]),
    (some "Base_to_L0", .null)]

/-- A file with the pattern of the robot. -/
noncomputable def fullFile : Yaml :=
  .map [(some "kinematics", .map [(some "DH", Yaml.ofVec [some 1, some 2, some 3, some 4]), (some "symb", .seq [ofI 1, ofI 1, ofI 1, ofI 1])])]

end Ex

theorem other_load (u : Bool) (s : Obj) (hs : (s.vec .DH).length = 4) :
    loadBody Ex.cB u Ex.otherFile s =
      .exc ((((s.setSymb .DH [0, 0, 0, 0]).set .DH []).set .W2L (resize (s.vec .W2L) 6))) := by
  have h1 : Ex.otherFile.getM "kinematics" = some (.map [(some "DH", Yaml.ofVec [some 0, some 0, some 0, some 0]),
      (some "symb", .seq [Ex.ofI 0, Ex.ofI 0, Ex.ofI 0, Ex.ofI 0])]) := by simp [Ex.otherFile, Yaml.getM, Yaml.lookup]
  have h2 : Ex.otherFile.getM "Base_to_L0" = some .null := by simp [Ex.otherFile, Yaml.getM, Yaml.lookup]
  have hk : loadKin Ex.cB Ex.otherFile s = .ok ((s.setSymb .DH [0, 0, 0, 0]).set .DH []) := by
    have hr : resize (s.vec .DH) (Ex.cB.n * 4) = s.vec .DH := by simp [resize, hs, Ex.cB]
    unfold loadKin
    rw [h1, yaml]
    simp only [Yaml.isDef, if_true, hr, set_self]
    have hdh : ((Yaml.map [(some "DH", Yaml.ofVec [some 0, some 0, some 0, some 0]),
        (some "symb", .seq [Ex.ofI 0, Ex.ofI 0, Ex.ofI 0, Ex.ofI 0])]).getM "DH").bind (Yaml.asVec Yaml.asD) =
        some [some 0, some 0, some 0, some 0] := by simp [Yaml.getM, Yaml.lookup, Yaml.ofVec, Yaml.asVec, Yaml.ofD, Yaml.asD]
    have hsy : (Yaml.map [(some "DH", Yaml.ofVec [some 0, some 0, some 0, some 0]),
        (some "symb", .seq [Ex.ofI 0, Ex.ofI 0, Ex.ofI 0, Ex.ofI 0])]).getM "symb" =
        some (.seq [Ex.ofI 0, Ex.ofI 0, Ex.ofI 0, Ex.ofI 0]) := by simp [Yaml.getM, Yaml.lookup]
    have hi : (Yaml.seq [Ex.ofI 0, Ex.ofI 0, Ex.ofI 0, Ex.ofI 0]).asVec Yaml.asI = some [0, 0, 0, 0] := by
      simp [Yaml.asVec, Ex.ofI, Yaml.asI]
    rw [hdh, yaml, readSymb, hsy, yaml]
    simp only [Yaml.isDef, if_true]
    rw [hi, yaml]
    have hp : pick [some 0, some 0, some 0, some 0] [0, 0, 0, 0] 0 4 = some [] := by
      rw [pick_eq (by simp) (by simp)]; simp [sel, List.range_succ]
    have hsymb : (s.setSymb .DH [0, 0, 0, 0]).symb .DH = [0, 0, 0, 0] := by simp [Obj.setSymb]
    simp only [hsymb, List.length_cons, List.length_nil, hp, must, setSeg_some (show 0 + ([] : List Num).length ≤ _ from Nat.zero_le _),
      conservativeResize, List.take_zero, Nat.zero_sub, List.replicate_zero, List.append_nil]
  unfold loadBody
  rw [hk, Out.bind, loadFrame, h2, yaml]
  simp only [Yaml.isDef, if_true, readSymb, Yaml.getM, yaml, Bool.false_eq_true, if_false, Option.bind_some, Yaml.asVec, Out.bind]
  rw [set_vec_ne _ _ (by decide), setSymb_vec]

/-- The claim fails: `load_conf` with a file of another pattern that it cannot read to the end compacts `par_DHtable` before it fails, so the
generated code then reads beyond the vector although no file was loaded successfully. -/
theorem C33_fails : ∃ (c : Cfg) (pat : Field → List ℤ) (y : Yaml) (s : Obj), (∀ f, (pat f).length = c.size f) ∧
    (∀ s', loadBody c true y (init c) ≠ .ok s') ∧ runAll c [.loadConf (some y) true] (init c) = some s ∧
    ∃ f, (s.vec f).length < Spec.reads (pat f) := by
  have h := other_load true (init Ex.cB) (by simp [init, Cfg.size, Ex.cB])
  refine ⟨Ex.cB, Ex.allOnes, Ex.otherFile, (((init Ex.cB).setSymb .DH [0, 0, 0, 0]).set .DH []).set .W2L
    (resize ((init Ex.cB).vec .W2L) 6), fun f => by simp [Ex.allOnes], fun s' e => ?_, ?_, .DH, ?_⟩
  · rw [h] at e; cases e
  · simp only [runAll, Call.run, loadConf, yaml, h, Out.caught]; rfl
  · rw [set_vec_ne _ _ (by decide), set_vec_same]
    simp [Spec.reads, Ex.allOnes, Cfg.size, Ex.cB, List.replicate]

/-- A history meeting the hypotheses of `C33_partial`. -/
example : ∀ k ∈ [Call.loadConf (some Ex.fullFile) true, .loadConf none true, .setDH 1 [some 1], .setREG [] true], k.For Ex.cB Ex.allOnes := by
  have hm : ∀ key, key ≠ "kinematics" → Ex.fullFile.getM key = some .undef := fun key h => by
    have h' : ¬ "kinematics" = key := fun e => h e.symm
    simp [Ex.fullFile, Yaml.getM, Yaml.lookup, h']
  have hf : Spec.FileFor Ex.cB Ex.allOnes Ex.fullFile := by
    refine ⟨fun nd h _ => ?_, fun nd h hd => ?_, fun nd h hd => ?_, fun nd h hd => ?_, fun nd h hd => ?_, fun nd js h hd => ?_⟩
    · simp [Ex.fullFile, Yaml.getM, Yaml.lookup] at h
      subst h
      refine ⟨fun sy hsy => ?_, fun v hv => ?_⟩
      · simp [Yaml.getM, Yaml.lookup] at hsy
        subst hsy
        simp only [Yaml.isDef, if_true]
        intro v hv
        simp [Yaml.asVec, Ex.ofI, Yaml.asI] at hv
        subst hv
        simp [Ex.allOnes, Cfg.size, Ex.cB, List.replicate]
      · simp [Yaml.getM, Yaml.lookup, Yaml.ofVec, Yaml.asVec, Yaml.ofD, Yaml.asD] at hv
        subst hv
        simp [Cfg.size, Ex.cB]
    all_goals
      rw [hm _ (by decide)] at h
      cases h
      simp [Yaml.isDef] at hd
  intro k hk
  simp only [List.mem_cons, List.not_mem_nil, or_false] at hk
  rcases hk with rfl | rfl | rfl | rfl
  · rintro y ⟨⟩; exact hf
  · rintro y ⟨⟩
  · exact rfl
  · trivial

end Thunder.Wrap
