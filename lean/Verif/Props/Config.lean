import Verif.Lemmas.ConfigInv
import Verif.Props.Robot

/-!
# Building a robot from a configuration: C38, C32
-/

namespace Thunder

open Spec Act Robot

set_option linter.unusedSimpArgs false

/-! ## Example trees -/

namespace Ex

/-- A whole number, as written in a file. -/
noncomputable def int (k : ℤ) : Yaml := .scalar ⟨"", some (some (k : ℝ)), some k, none⟩
/-- A word. -/
def word (t : String) : Yaml := .scalar ⟨t, none, none, none⟩
/-- A truth value. -/
def truth (b : Bool) : Yaml := .scalar ⟨"", none, none, some b⟩

noncomputable def frame (tr : List Num) : Yaml := .map [(some "tr", Yaml.ofVec tr), (some "ypr", Yaml.ofVec [some 0, some 0, some 0])]

noncomputable def inert : Yaml := .map [(some "mass", Yaml.ofD (some 5)), (some "CoM_x", Yaml.ofD (some 1)), (some "CoM_y", Yaml.ofD (some 2)),
  (some "CoM_z", Yaml.ofD (some 3)), (some "Ixx", Yaml.ofD (some 4)), (some "Ixy", Yaml.ofD (some 0)), (some "Ixz", Yaml.ofD (some 0)),
  (some "Iyy", Yaml.ofD (some 6)), (some "Iyz", Yaml.ofD (some 0)), (some "Izz", Yaml.ofD (some 7)),
  (some "symb", .seq [int 1, int 1, int 0, int 0, int 0, int 0, int 0, int 0, int 0, int 0])]

/-- A configuration with the given joint types, base translation and links. -/
noncomputable def conf (ts : List String) (tr : List Num) (links : List (Option String × Yaml)) : Yaml := .map
  [(some "num_joints", int 1), (some "type_joints", .seq (ts.map word)), (some "kinematics", .map [(some "DH", Yaml.ofVec [some 1, some 0, some 0, some 2])]),
    (some "Base_to_L0", frame tr), (some "Ln_to_EE", frame [some 0, some 0, some 1]), (some "dynamics", .map links)]

noncomputable def goodConf : Yaml := conf ["R"] [some 0, some 0, some 0] [(some "link1", .map [(some "inertial", inert)])]

/-- Contents of these configurations. -/
noncomputable def oneLink (t : String) : Conf where
  types := [t]
  elastic := false
  kO := 0
  dO := 0
  dmO := 0
  dlO := 0
  dh := fun i => ([1, 0, 0, 2] : List ℝ).getD i 0
  w2l := fun _ => 0
  ee := fun i => ([0, 0, 1] : List ℝ).getD i 0
  g := fun _ => 0
  dyn := fun i => ([5, 1, 2, 3, 4, 0, 0, 6, 0, 7] : List ℝ).getD i 0
  dl := fun _ => 0
  K := fun _ => 0
  D := fun _ => 0
  Dm := fun _ => 0
  Mm := fun _ => 0
  fdh := fun _ => 0
  fw2l := fun _ => 0
  fee := fun _ => 0
  fg := fun _ => 0
  fdyn := fun i => if i < 2 then 1 else 0
  fdl := fun _ => 0
  fK := fun _ => 0
  fD := fun _ => 0
  fDm := fun _ => 0
  fMm := fun _ => 0

theorem describes_conf (t : String) : Describes (conf [t] [some 0, some 0, some 0] [(some "link1", .map [(some "inertial", inert)])]) (oneLink t) where
  joints := ⟨int 1, child_of_lookup rfl, rfl⟩
  types := ⟨_, child_of_lookup rfl, rfl⟩
  dlO := .inl ⟨⟨_, rfl, by simp⟩, rfl⟩
  kin := ⟨_, child_of_lookup rfl, ⟨_, child_of_lookup rfl, rfl⟩, .inl ⟨⟨_, rfl, by simp⟩, fun _ _ => rfl⟩⟩
  grav := .inl ⟨⟨_, rfl, by simp⟩, fun _ _ => ⟨rfl, rfl⟩⟩
  base := ⟨_, child_of_lookup rfl, ⟨_, child_of_lookup rfl, rfl⟩, ⟨_, child_of_lookup rfl, rfl⟩, .inl ⟨⟨_, rfl, by simp⟩, fun _ _ => rfl⟩⟩
  tool := ⟨_, child_of_lookup rfl, ⟨_, child_of_lookup rfl, rfl⟩, ⟨_, child_of_lookup rfl, rfl⟩, .inl ⟨⟨_, rfl, by simp⟩, fun _ _ => rfl⟩⟩
  links := by
    refine ⟨_, child_of_lookup rfl, rfl, fun i hi => ?_⟩
    obtain rfl : i = 0 := by simp [Conf.n, oneLink] at hi; omega
    refine ⟨_, _, rfl, ⟨_, child_of_lookup rfl, ⟨⟨_, child_of_lookup rfl, rfl⟩, ⟨_, child_of_lookup rfl, rfl⟩, ⟨_, child_of_lookup rfl, rfl⟩,
      ⟨_, child_of_lookup rfl, rfl⟩, ⟨_, child_of_lookup rfl, rfl⟩, ⟨_, child_of_lookup rfl, rfl⟩, ⟨_, child_of_lookup rfl, rfl⟩,
      ⟨_, child_of_lookup rfl, rfl⟩, ⟨_, child_of_lookup rfl, rfl⟩, ⟨_, child_of_lookup rfl, rfl⟩⟩, .inr ⟨_, child_of_lookup rfl, ?_⟩⟩,
      .inl ⟨rfl, ⟨_, rfl, by simp⟩⟩⟩
    rfl
  ela := .inl ⟨rfl, .inl ⟨_, rfl, by simp⟩, rfl, rfl, rfl⟩

end Ex

/-! ## C38 -/

/-- C38 under conditions on the sizes in the file: the constructor returns an object or throws; no access outside a vector.  Without the conditions
this is false (`C38_fails` and the following theorems). -/
theorem C38_partial {y : Yaml} {m : ℤ} (hs : SafeConfig y m) : construct y ≠ .ub := by
  have h := parse_safe hs Part.new trivial
  have key : ∀ p : Part, Known p → initVars p ≠ .ub := by
    intro p hp h
    unfold initVars at h
    unfold Known at hp
    split at h
    · rename_i hn; rw [hn] at hp; cases hp
    · split_ifs at h
  unfold construct
  cases e : parse y Part.new with
  | ok a s => rw [e] at h; exact key _ h
  | yaml s => rw [e] at h; exact key _ h
  | exc s => simp
  | ub => rw [e] at h; exact h.elim

/-- On a well-formed file the constructor succeeds, and the object holds exactly the contents of the file. -/
theorem C38_wellformed {y : Yaml} {c : Conf} (h : Describes y c) : ∃ r, construct y = .ok r ∧ r.n = c.n ∧ r.types = c.types ∧ r.ne = c.ne ∧
    r.elastic = c.elastic ∧ (r.kI, r.dI, r.dmI, r.dlI) = ((c.kO : ℤ), (c.dO : ℤ), (c.dmO : ℤ), (c.dlO : ℤ)) ∧
    r.args.find "par_DHtable" = some (nums (4 * c.n) c.dh) ∧ r.args.find "par_world2L0" = some (nums 6 c.w2l) ∧
    r.args.find "par_Ln2EE" = some (nums 6 c.ee) ∧ r.args.find "par_gravity" = some (nums 3 c.g) ∧
    r.symb.find "par_DHtable" = some (flagsL (4 * c.n) c.fdh) ∧ r.symb.find "par_world2L0" = some (flagsL 6 c.fw2l) ∧
    r.symb.find "par_Ln2EE" = some (flagsL 6 c.fee) ∧ r.symb.find "par_gravity" = some (flagsL 3 c.fg) ∧
    r.symb.find "par_DYN" = some (flagsL (c.n * 10) c.fdyn) ∧ r.symb.find "par_Dl" = some (flagsL (c.n * c.dlO) c.fdl) ∧
    (c.elastic = true → r.symb.find "par_K" = some (flagsL (c.ne * c.kO) c.fK) ∧ r.symb.find "par_D" = some (flagsL (c.ne * c.dO) c.fD) ∧
      r.symb.find "par_Dm" = some (flagsL (c.ne * c.dmO) c.fDm) ∧ r.symb.find "par_Mm" = some (flagsL c.ne c.fMm)) := by
  refine ⟨_, construct_ok h, rfl, rfl, rfl, rfl, rfl, ?_⟩
  simp [robotOf, partOf, find_insAll, SMap.find_cons, symbOf, SMap.find_put, kinArgs, elaFlags]
  intro he
  simp [he]

/-- On a well-formed file all accesses are inside the vectors: `C38_partial` applies. -/
theorem C38_safe {y : Yaml} {c : Conf} (h : Describes y c) : SafeConfig y c.n := h.safe

/-- An unreadable file leaves the number of joints uninitialised, and `initVarsFuns` reads it. -/
theorem C38_fails : constructFile none = .ub := rfl
/-- Fewer joint types than joints: read past the end of the list, before the size check. -/
theorem C38_fails_types : construct (.map [(some "num_joints", Ex.int 2), (some "type_joints", .seq [Ex.word "R"])]) = .ub := by
  simp [construct, parse, parseBasic, at1, Yaml.getM, Yaml.lookup, Ex.int, Yaml.asI, bind_def, Yaml.asVec, Ex.word, Yaml.asS, opt, Yaml.isDef, classify]
/-- A translation with two components: read past its end. -/
theorem C38_fails_offset : construct (Ex.conf ["R"] [some 0, some 0] [(some "link1", .map [(some "inertial", Ex.inert)])]) = .ub := by
  simp [construct, parse, parseBasic, at1, Yaml.getM, Yaml.lookup, Ex.int, Yaml.asI, bind_def, Yaml.asVec, Ex.word, Yaml.asS, opt, Yaml.isDef, classify,
    Ex.conf, Ex.inert, Ex.frame, parseNums, Yaml.ofVec, Yaml.ofD, Yaml.asD, parseDynSymb, symbLinks, Yaml.items, Yaml.getC, copyAt, parseDlSymb,
    parseElaSymb, Part.new, putSymb, parseKinSymb, symbOpt, parseFinal, first3, initVars, Part.SizesOk]
/-- One link more than joints: the flags of the last link are copied past the end of the vector. -/
theorem C38_fails_links : construct (Ex.conf ["R"] [some 0, some 0, some 0]
    [(some "link1", .map [(some "inertial", Ex.inert)]), (some "link2", .map [(some "inertial", Ex.inert)])]) = .ub := by
  simp [construct, parse, parseBasic, at1, Yaml.getM, Yaml.lookup, Ex.int, Yaml.asI, bind_def, Yaml.asVec, Ex.word, Yaml.asS, opt, Yaml.isDef, classify,
    Ex.conf, Ex.inert, Ex.frame, parseNums, Yaml.ofVec, Yaml.ofD, Yaml.asD, parseDynSymb, symbLinks, Yaml.items, Yaml.getC, copyAt, parseDlSymb,
    parseElaSymb, Part.new, putSymb, parseKinSymb, symbOpt, parseFinal, first3, initVars, Part.SizesOk]
/-- The kinematics missing: the error is reported on the console only, and the constructor returns an object without `par_DHtable`. -/
theorem C38_fails_silent : ∃ r, construct (.map [(some "num_joints", Ex.int 1), (some "type_joints", .seq [Ex.word "R"])]) = .ok r ∧
    r.args.find "par_DHtable" = none := by
  have : ∀ r, construct (.map [(some "num_joints", Ex.int 1), (some "type_joints", .seq [Ex.word "R"])]) = .ok r → r.args.find "par_DHtable" = none := by
    intro r h
    simp [construct, parse, parseBasic, at1, Yaml.getM, Yaml.lookup, Ex.int, Yaml.asI, bind_def, Yaml.asVec, Ex.word, Yaml.asS, opt, Yaml.isDef, classify,
      Ex.conf, Ex.inert, Ex.frame, parseNums, Yaml.ofVec, Yaml.ofD, Yaml.asD, parseDynSymb, symbLinks, Yaml.items, Yaml.getC, copyAt, parseDlSymb,
      parseElaSymb, Part.new, putSymb, parseKinSymb, symbOpt, parseFinal, first3, initVars, Part.SizesOk] at h
    subst h
    simp [find_insAll, newArgs, SMap.find_cons]
  obtain ⟨r, hr⟩ : ∃ r, construct (.map [(some "num_joints", Ex.int 1), (some "type_joints", .seq [Ex.word "R"])]) = .ok r := by
    simp [construct, parse, parseBasic, at1, Yaml.getM, Yaml.lookup, Ex.int, Yaml.asI, bind_def, Yaml.asVec, Ex.word, Yaml.asS, opt, Yaml.isDef, classify,
      Ex.conf, Ex.inert, Ex.frame, parseNums, Yaml.ofVec, Yaml.ofD, Yaml.asD, parseDynSymb, symbLinks, Yaml.items, Yaml.getC, copyAt, parseDlSymb,
      parseElaSymb, Part.new, putSymb, parseKinSymb, symbOpt, parseFinal, first3, initVars, Part.SizesOk]
  exact ⟨r, hr, this r hr⟩

namespace Ex

example : Describes goodConf (oneLink "R") := describes_conf "R"

example : SafeConfig goodConf 1 := (describes_conf "R").safe

end Ex

/-! ## C32 -/

/-- C32 for the robots built from a configuration, after any calls: a setter accepts exactly the vectors of the right size, stores the vector
and changes nothing else.  The elastic variables need `ELASTIC_MODEL` (`C32_fails_config`), and `set_arg` must not have been used to store a vector of
another size under the name of the argument (`C32_fails_tail`). -/
theorem C32_config {y : Yaml} {r₀ r : Robot} (h : construct y = .ok r₀) (f : VarName) (hf : r₀.elastic = true ∨ f ∈ [VarName.q, .dq, .dqr, .ddqr])
    (hist : List RCall) (hh : ∀ v, RCall.setArg (argName f) v ∈ hist → v.length = argSize r₀ f) (e : after hist r₀ = some r) (v : List Num) :
    (v.length = argSize r f → ∃ r', setVar f v r = .ok 1 r' ∧ r'.arg (argName f) = v ∧ (∀ k, k ≠ argName f → r'.args.find k = r.args.find k) ∧
      r' = { r with args := r'.args }) ∧
    (v.length ≠ argSize r f → setVar f v r = .ok 0 r) := by
  simp only [argName_eq, argSize_eq] at *
  obtain ⟨p, hp, -, hr⟩ := construct_inv h
  have e1 : r₀.args = insAll p.args (newArgs p p.types.length) := by rw [hr]
  have e2 : r₀.symb = insAll p.symb (newSymb p p.types.length) := by rw [hr]
  have e3 : r₀.n = p.types.length := by rw [hr]
  have e4 : r₀.ne = p.ne := by rw [hr]
  have e5 : r₀.elastic = p.elastic := by rw [hr]
  clear hr
  rw [e5] at hf
  have ha : r₀.args.find f.key = some (zeros (f.size r₀)) := by
    rw [e1, find_new hp.args (by cases f <;> decide)]
    cases f <;> simp [newArgs, SMap.find_cons, VarName.key, VarName.size, e3, e4] at hf ⊢ <;> split_ifs <;> simp [hf, SMap.find_cons]
  have hs : r₀.symb.find f.key = some (ones (f.size r₀)) := by
    rw [e2, find_new hp.symb (by cases f <;> decide)]
    cases f <;> simp [newSymb, SMap.find_cons, VarName.key, VarName.size, e3, e4] at hf ⊢ <;> simp [hf, SMap.find_cons]
  have hall : ∀ q ∈ newSymb p p.types.length, q.1 = f.key → q.2 = ones (f.size r₀) := by
    intro q hq hk
    simp only [newSymb, List.mem_append, List.mem_cons, List.not_mem_nil, or_false] at hq
    rcases hq with (rfl | rfl | rfl | rfl | rfl | rfl | rfl | rfl) | hq
    iterate 8 (revert hk; cases f <;> simp [VarName.key, VarName.size, e3, e4])
    split_ifs at hq
    · simp only [List.mem_cons, List.not_mem_nil, or_false] at hq
      rcases hq with rfl | rfl | rfl | rfl <;> revert hk <;> cases f <;> simp [VarName.key, VarName.size, e3, e4]
    · cases hq
  have hk : f.key ∉ symbKeys := by cases f <;> decide
  have h4 : ∀ q ∈ r₀.symb, q.1 = f.key → q.2.length = f.size r₀ ∧ ∀ x ∈ q.2, x ≠ 0 := by
    intro q hq hqk
    rw [e2] at hq
    rcases mem_insAll hq with hq | hq
    · exact absurd (hqk ▸ hp.symb q hq) hk
    · rw [hall q hq hqk]
      exact ⟨by simp [ones], fun x hx => by rw [List.eq_of_mem_replicate hx]; decide⟩
  have hH := C32_history r₀ f
  have hP := C32_partial r f v
  simp only [argName_eq, argSize_eq] at hH hP
  obtain ⟨h1, h2⟩ := hH (by unfold SMap.has; rw [ha]; rfl) (by unfold Robot.arg SMap.get; rw [ha]; simp [zeros])
    (by unfold SMap.has; rw [hs]; rfl) h4 hist hh e
  exact hP h1 h2

namespace Ex

example : construct goodConf = .ok (robotOf (oneLink "R")) ∧ VarName.q ∈ [VarName.q, .dq, .dqr, .ddqr] := ⟨construct_ok (describes_conf "R"), by simp⟩

/-- A joint with a series elastic actuator, no `ELASTIC_MODEL`. -/
noncomputable def seaConf : Yaml := conf ["R_SEA"] [some 0, some 0, some 0] [(some "link1", .map [(some "inertial", inert)])]

end Ex

/-- C32 fails for a configuration with an elastic joint and no `ELASTIC_MODEL`: the constructor succeeds, and `set_x` with a vector of the
right size throws. -/
theorem C32_fails_config : ∃ r v r', construct Ex.seaConf = .ok r ∧ v.length = argSize r .x ∧ setVar .x v r = .exc r' := by
  obtain ⟨r, hr, hn, ha⟩ : ∃ r, construct Ex.seaConf = .ok r ∧ r.ne = 1 ∧ r.arg "x" = [] := by
    exact ⟨_, construct_ok (Ex.describes_conf "R_SEA"), rfl, rfl⟩
  refine ⟨r, [some 1], r.setArgs "x" [], hr, by simp [argSize, hn], ?_⟩
  unfold setVar
  rw [bind_ok (read_run _)]
  exact setSized_short (by simp [VarName.size, hn]) (by simp [VarName.key, ha]) (by simp [VarName.key, ha])

end Thunder
