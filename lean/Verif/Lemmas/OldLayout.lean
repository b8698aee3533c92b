import Verif.Lemmas.Pipeline
import Verif.Lemmas.Book
import Verif.Spec.Fleet

/-!
# A file without a kinematics section
-/

namespace Thunder

noncomputable section

open Spec Robot Act

variable {y : Yaml} {n : ℕ} {ts : List String}

/-- The members written before the exception. -/
def oldPart (n : ℕ) (ts : List String) : Part where
  nj := some n
  types := ts
  elastic := false
  isEla := ts.map fun t => if isSEA t then 1 else 0
  ne := ts.countP isSEA
  kI := 0
  dI := 0
  dlI := 0
  dmI := 0
  args := []
  model := []
  symb := []

theorem parse_old (h : NoKin y n ts) : parse y Part.new = .yaml (oldPart n ts) := by
  have h1 := getM_entry h.joints
  have h2 := getM_entry h.types
  have h3 := getM_noChild h.dl
  have h4 := getM_noChild h.elastic
  have h5 := getM_noChild h.kin
  have hb : parseBasic y Part.new = .ok (n : ℤ) { Part.new with nj := some (n : ℤ), types := ts } := by
    simp [parseBasic, at1, bind_def, h1, h2, h3, h4, opt, Yaml.isDef, Part.new]
  have hc : classify (n : ℤ) { Part.new with nj := some (n : ℤ), types := ts } = .ok () (oldPart n ts) := by
    have ht : ts.take n = ts := by rw [← h.length]; exact List.take_length
    simp [classify, bind_def, Part.new, oldPart, h.length, ht]
  have hn : parseNums y (oldPart n ts) = .yaml (oldPart n ts) := by
    have h6 : Yaml.undef.getM "DH" = some .undef := rfl
    simp [parseNums, at1, bind_def, h5, h6, Yaml.asVec]
  unfold parse
  rw [bind_ok hb, bind_ok hc, bind_yaml hn]

/-- The maps that `initVarsFuns` then fills. -/
def oldArgs (n : ℕ) (ts : List String) : SMap (List Num) := insAll [] (newArgs (oldPart n ts) n)
theorem oldArgs_eq (n : ℕ) (ts : List String) : oldArgs n ts = insAll [] (newArgs (oldPart n ts) n) := by delta oldArgs; exact Eq.refl _
attribute [irreducible] oldArgs
def oldModel (n : ℕ) (ts : List String) : SMap SX := insAll [] (newModel (oldPart n ts) n)
theorem oldModel_eq (n : ℕ) (ts : List String) : oldModel n ts = insAll [] (newModel (oldPart n ts) n) := by delta oldModel; exact Eq.refl _
attribute [irreducible] oldModel
def oldSymb (n : ℕ) (ts : List String) : SMap (List ℤ) := insAll [] (newSymb (oldPart n ts) n)
theorem oldSymb_eq (n : ℕ) (ts : List String) : oldSymb n ts = insAll [] (newSymb (oldPart n ts) n) := by delta oldSymb; exact Eq.refl _
attribute [irreducible] oldSymb

/-- The robot that the constructor leaves. -/
def oldRobot (n : ℕ) (ts : List String) : Robot where
  name := "robot"
  n := n
  ne := ts.countP isSEA
  elastic := false
  types := ts
  isEla := ts.map fun t => if isSEA t then 1 else 0
  kI := 0
  dI := 0
  dlI := 0
  dmI := 0
  args := oldArgs n ts
  model := oldModel n ts
  symb := oldSymb n ts
  funs := []
  funArgs := []
  funDescr := []

theorem construct_old (h : NoKin y n ts) : construct y = .ok (oldRobot n ts) := by
  unfold construct
  rw [parse_old h]
  have h1 : (oldPart n ts).types.length = n := h.length
  show initVars (oldPart n ts) = _
  unfold initVars
  rw [show (oldPart n ts).nj = some (n : ℤ) from rfl]
  dsimp only
  rw [h1, if_neg (by simp), if_neg (by simp [Part.SizesOk, oldPart])]
  unfold oldRobot
  rw [oldArgs_eq, oldModel_eq, oldSymb_eq]
  rfl

/-- Reading the file again leaves everything at zero. -/
theorem load_old (h : NoKin y n ts) (name : String) : ∃ r, loadConfPar (some y) true { oldRobot n ts with name := name } = .ok 1 r ∧
    r.model = (oldRobot n ts).model ∧ r.symb = (oldRobot n ts).symb ∧ r.n = n ∧ r.arg "par_DYN" = zeros (10 * n) ∧
      ∀ k, k ≠ "par_DYN" → k ≠ "par_REG" → r.args.find k = (oldArgs n ts).find k := by
  obtain ⟨r₀, hr₀⟩ : ∃ r₀ : Robot, r₀ = { oldRobot n ts with name := name } := ⟨_, rfl⟩
  rw [← hr₀]
  have f1 : r₀.n = n := by rw [hr₀]; rfl
  have f3 : r₀.elastic = false := by rw [hr₀]; rfl
  have f4 : r₀.dlI = 0 := by rw [hr₀]; rfl
  have f5 : r₀.kI = 0 := by rw [hr₀]; rfl
  have f6 : r₀.dI = 0 := by rw [hr₀]; rfl
  have f7 : r₀.dmI = 0 := by rw [hr₀]; rfl
  have hs : LocSizes r₀ := by simp [LocSizes, DlSize, f4, f5, f6, f7]
  have hd := getM_noChild h.dyn
  have hb : withLoc (confBody r₀ (some y)) (Loc.init r₀) r₀ = .ok (Loc.init r₀) r₀ := by
    simp [withLoc, confBody, bind_def, hd, f3, Yaml.items, confLinks]
  unfold loadConfPar
  rw [bind_ok (read_run _), bind_ok (s' := r₀) (a := ()) (by rw [if_pos hs]; rfl), bind_ok hb]
  have g1 : r₀.dlOrd = 0 := by simp [Robot.dlOrd, f4]
  have g2 : r₀.kOrd = 0 := by simp [Robot.kOrd, f5]
  have g3 : r₀.dOrd = 0 := by simp [Robot.dOrd, f6]
  have g4 : r₀.dmOrd = 0 := by simp [Robot.dmOrd, f7]
  have hst : storeConf (Loc.init r₀) r₀ = r₀.setArgs "par_DYN" (zeros (10 * n)) := by
    simp [storeConf, setWhen, Robot.setArgs, Robot.dlOrd, Robot.kOrd, Robot.dOrd, Robot.dmOrd, f1, f3, f4, f5, f6, f7, Loc.init]
  have hr : (r₀.arg "par_REG").length = 10 * n := by
    rw [hr₀]
    unfold Robot.arg SMap.get
    show (((oldArgs n ts).find "par_REG").getD []).length = _
    rw [oldArgs_eq, find_insAll]
    simp [SMap.find_cons, newArgs, zeros]
  have ha : (r₀.setArgs "par_DYN" (zeros (10 * n))).arg "par_DYN" = zeros (10 * n) := by rw [arg_setArgs, if_pos rfl]
  have hu := updateREG_ok (r := r₀.setArgs "par_DYN" (zeros (10 * n)))
    (by rw [ha]; simp [zeros, Robot.setArgs, f1]) (by rw [arg_setArgs, if_neg (by decide)]; exact hr.trans (by rw [← f1]; rfl))
  refine ⟨((r₀.setArgs "par_DYN" (zeros (10 * n))).touchArg "par_DYN").setArgs "par_REG" (regOfDyn r₀.n (zeros (10 * n))), ?_, ?_⟩
  · refine (bind_ok (a := ()) (modify_run _ _)).trans ?_
    rw [hst, if_pos rfl, bind_ok hu, ha]
    rfl
  · refine ⟨by rw [hr₀]; rfl, by rw [hr₀]; rfl, f1, ?_, fun k h1 h2 => ?_⟩
    · rw [arg_setArgs, if_neg (by decide), arg_touch, ha]
    · simp only [Robot.setArgs, Robot.touchArg, SMap.find_put, SMap.find_ins, h1.symm, h2.symm, if_false]
      rw [hr₀]
      rfl

theorem subsLoop_ones (par : String) (r : Robot) : ∀ (l : List ℤ) (i : ℕ), (∀ f ∈ l, f ≠ 0) → subsLoop par i l r = .ok () r
  | [], _, _ => rfl
  | f :: l, i, h => by
    have := subsLoop_ones par r l (i + 1) fun f hf => h f (List.mem_cons_of_mem _ hf)
    simp [subsLoop, h f List.mem_cons_self, this]

/-- When all flags are set nothing is replaced. -/
theorem initSymb_ones {r : Robot} (h : ∀ p ∈ r.symb, ∀ f ∈ r.flags p.1, f ≠ 0) : initSymb r = .ok () r := by
  unfold initSymb
  rw [bind_ok (read_run _), foldl_acts _ _ (pure_run () r)]
  have : ∀ l : List (String × List ℤ), (∀ p ∈ l, p ∈ r.symb) → l.foldr (fun p k => subsSymb p.1 >>= fun _ => k) (pure ()) r = .ok () r := by
    intro l
    induction l with
    | nil => intro _; rfl
    | cons p l ih =>
      intro hl
      have hp := hl p List.mem_cons_self
      have hh : r.symb.has p.1 = true := SMap.has_iff.2 (List.mem_map_of_mem hp)
      have e : subsSymb p.1 r = .ok () r := by
        unfold subsSymb
        rw [bind_ok (read_run _), bind_ok (a := ()) (modify_run _ _), SMap.ins, if_pos hh]
        exact subsLoop_ones _ _ _ _ (h p hp)
      rw [List.foldr_cons, bind_ok e]
      exact ih fun q hq => hl q (List.mem_cons_of_mem _ hq)
  exact this _ fun _ hp => hp

theorem flags_old (n : ℕ) (ts : List String) (k : String) : ∀ f ∈ (oldRobot n ts).symb.get k [], f ≠ 0 := by
  intro f hf
  rw [SMap.get, show (oldRobot n ts).symb = oldSymb n ts from rfl, oldSymb_eq, find_insAll] at hf
  simp only [SMap.find_nil, Option.none_or] at hf
  cases e : SMap.find (newSymb (oldPart n ts) n) k with
  | none => rw [e] at hf; simp at hf
  | some l =>
    have := SMap.mem_of_find e
    rw [e] at hf
    simp [newSymb, oldPart, ones] at this
    simp only [Option.getD_some] at hf
    rcases this with h | h | h | h | h | h | h | h <;> rw [h.2] at hf <;> simp at hf <;> omega

variable [Fl]

/-- The kinematics cannot be computed. -/
theorem chain_old {r : Robot} (h : r.model = (oldRobot n ts).model) : computeChain r = .exc r := by
  have h1 : r.mod "par_world2L0" = SX.zeros 0 0 := by
    rw [Robot.mod, h, SMap.get, show (oldRobot n ts).model = oldModel n ts from rfl, oldModel_eq, find_insAll]
    simp [newModel, oldPart, SMap.find_cons]
  unfold computeChain
  rw [bind_ok (read_run _)]
  have h2 : ¬ ((baseOf r).Ti 0).ok := by
    show ¬ (getTransform (r.mod "par_world2L0")).ok
    rw [h1]
    simp [getTransform, SX.zeros]
  unfold chainRegs
  simp only [List.cons_append, registerAll]
  refine bind_exc ?_
  unfold register
  rw [bind_ok (read_run _), if_neg h2]
  rfl

theorem fromFile_old (h : NoKin y n ts) (name : String) : robotFromFile name (some y) true = .exc := by
  obtain ⟨r, e, h1, h2, -⟩ := load_old h name
  unfold robotFromFile constructFile
  rw [Option.getD_some, construct_old h]
  have : fillRobot name (some y) true (oldRobot n ts) = .exc r := by
    unfold fillRobot
    refine Eq.trans (bind_ok (a := ()) (modify_run _ _)) ?_
    rw [bind_ok e, if_pos rfl, bind_ok (initSymb_ones fun p _ => by rw [Robot.flags, h2]; exact flags_old n ts p.1)]
    exact bind_exc (bind_exc (chain_old h1))
  dsimp only
  rw [this]

theorem fromFile_old_plain (h : NoKin y n ts) (name : String) : ∃ r, robotFromFile name (some y) false = .ok r ∧ r.n = n ∧
    r.arg "par_DYN" = zeros (10 * n) ∧ r.args.find "par_DHtable" = none ∧ r.args.find "par_gravity" = none := by
  obtain ⟨r, e, h1, h2, h3, h4, h5⟩ := load_old h name
  refine ⟨r, ?_, h3, h4, ?_⟩
  · unfold robotFromFile constructFile
    rw [Option.getD_some, construct_old h]
    have : fillRobot name (some y) false (oldRobot n ts) = .ok () r := by
      unfold fillRobot
      refine Eq.trans (bind_ok (a := ()) (modify_run _ _)) ?_
      rw [bind_ok e, if_neg (by decide)]
      rfl
    dsimp only
    rw [this]
  · have key : ∀ k ∈ ["par_DHtable", "par_world2L0", "par_Ln2EE", "par_gravity"], (oldArgs n ts).find k = none := by
      intro k hk
      rw [oldArgs_eq, find_insAll]
      simp only [List.mem_cons, List.not_mem_nil, or_false] at hk
      rcases hk with rfl | rfl | rfl | rfl <;> simp [newArgs, oldPart, SMap.find_cons]
    exact ⟨(h5 _ (by decide) (by decide)).trans (key _ (by simp)), (h5 _ (by decide) (by decide)).trans (key _ (by simp))⟩

end

end Thunder
