import Mathlib.Tactic.IntervalCases
import Verif.Lemmas.WrapperInv
import Mathlib.Tactic.NormNum
import Mathlib.Tactic.Positivity

/-!
# Properties of the generated wrapper class: C30, C31
-/

namespace Thunder.Wrap

/-! ## C30

Full statement (false, see `C30_fails`, `C30_fails_load`): for every history of public calls with default update flags, `par_REG` is the REG
image of `par_DYN`.  Missing in `C30_partial`: calls that convert a `par_REG` with a zero mass, and files whose section `dynamics` cannot be
read to the end. -/

/-- **C30** (partial).  After every history of calls with default update flags that meets `SafeRun`, `par_REG` is the REG image of
`par_DYN`. -/
theorem C30_partial (c : Cfg) (ks : List Call) {s : Obj} (hs : SafeRun c ks (init c)) (e : runAll c ks (init c) = some s) :
    Spec.Consistent c.n (s.vec .DYN) (s.vec .REG) := by
  have h := inv_runAll ks (inv_init c) hs e
  exact consistent_of_eq (h.1 .DYN id) h.2

/-- In any reachable state, `set_par_REG` with a vector of numbers of the right size keeps the two vectors consistent exactly when every mass
is non-zero. -/
theorem C30_set_par_REG (c : Cfg) (ks : List Call) {s : Obj} (e : runAll c ks (init c) = some s) (p : ℕ → ℝ) :
    ∃ s', (Call.setREG (vecN (10 * c.n) p) true).run c s = some s' ∧ s'.vec .REG = vecN (10 * c.n) p ∧
      (Spec.Consistent c.n (s'.vec .DYN) (s'.vec .REG) ↔ ∀ i < c.n, p (10 * i) ≠ 0) := by
  have hsz := sized_runAll ks (sized_init c) e
  refine ⟨(s.set .REG (vecN (10 * c.n) p)).set .DYN (dynOfRegW c.n (vecN (10 * c.n) p)), ?_, ?_, ?_⟩
  · exact run_setREG hsz (length_vecN _ _)
  · rw [set_vec_ne _ _ (by decide), set_vec_same]
  · rw [set_vec_same, set_vec_ne _ _ (by decide), set_vec_same]
    constructor
    · intro h i hi h0
      obtain ⟨-, -, h⟩ := h
      have hd : ∀ k < 10, (dynOfRegW c.n (vecN (10 * c.n) p))[10 * i + k]? = (linkDyn steinerGen (seg (vecN (10 * c.n) p) i))[k]? := fun k hk => by
        rw [dynOfRegW_eq, dynOfReg]
        exact getElem?_flatMap_block (fun i => length_linkDyn _ _) hi hk
      rcases h i hi with ⟨x, hx, -⟩ | ⟨-, k, hk, hk'⟩
      · have := hx 1 (by decide)
        rw [hd 1 (by decide)] at this
        have h00 : seg (vecN (10 * c.n) p) i 0 = some 0 := by rw [seg_vecN (by omega), Nat.add_zero, h0]
        simp [linkDyn, h00] at this
      · have hlt : 10 * i + k < 10 * c.n := by omega
        simp [vecN, hlt] at hk'
    · intro h
      exact consistent_of_eq (length_dynOfRegW _ _) (reg_dyn_of_realMass ⟨p, rfl, h⟩).symm

/-- The claim fails: on a fresh object, `set_par_REG` with a vector of the wrong size replaces the centre of mass by NaN. -/
theorem C30_fails : ∃ (c : Cfg) (ks : List Call) (s : Obj), (∀ k ∈ ks, k.Default) ∧ runAll c ks (init c) = some s ∧
    ¬ Spec.Consistent c.n (s.vec .DYN) (s.vec .REG) := by
  refine ⟨⟨1, 0, 0, 0, 0, 0⟩, [.setREG [] true], (init ⟨1, 0, 0, 0, 0, 0⟩).set .DYN (dynOfRegW 1 (List.replicate 10 (some 0))),
    by simp [Call.Default], ?_, ?_⟩
  · rw [runAll, run_setREG_wrong (sized_init _) (by simp)]
    rfl
  · rintro ⟨-, -, h⟩
    rcases h 0 (by decide) with ⟨x, hx, -⟩ | ⟨-, k, hk, hk'⟩
    · have := hx 1 (by decide)
      simp [init, Cfg.size, dynOfRegW, linkDyn, seg, List.replicate] at this
    · rw [set_vec_ne _ _ (by decide)] at hk'
      simp only [init, Cfg.size, List.getElem?_replicate] at hk'
      split at hk' <;> cases hk'

namespace Ex

/-- Robot with one joint. -/
def c1 : Cfg := ⟨1, 0, 0, 0, 1, 0⟩

/-- Inertial values of one link in a file. -/
noncomputable def inertial (com : String) (p : List ℝ) : Yaml :=
  .map ((List.range 10).map fun k => (some ((inertialKeys com).getD k ""), Yaml.ofD (p[k]?)))

/-- A file whose only link has a node `friction` without `Dl`. -/
noncomputable def badFile : Yaml :=
  .map [(some "dynamics", .map [(some "link1", .map [(some "inertial", inertial "CoM_" [1, 0, 0, 0, 0, 0, 0, 0, 0, 0]),
    (some "friction", .map [])])])]

/-- A complete file. -/
noncomputable def goodFile : Yaml :=
  .map [(some "dynamics", .map [(some "link1", .map [(some "inertial", inertial "CoM_" [2, 1, 0, 0, 1, 0, 0, 1, 0, 1]),
    (some "friction", .map [(some "Dl", Yaml.ofVec [some 3])])])])]

theorem read_inertial (p : List ℝ) (h : p.length = 10) : readInertial "CoM_" (inertial "CoM_" p) = some (p.map some) := by
  match p, h with
  | [a0, a1, a2, a3, a4, a5, a6, a7, a8, a9], _ =>
    simp [readInertial, inertial, inertialKeys, Yaml.getM, Yaml.lookup, List.range_succ, Yaml.ofD, Yaml.asD]

end Ex

/-- The claim fails also for a file that `load_conf` reads only in part: the new values stay in `par_DYN` without update of `par_REG`. -/
theorem C30_fails_load : ∃ s, runAll Ex.c1 [.loadConf (some Ex.badFile) true] (init Ex.c1) = some s ∧
    ¬ Spec.Consistent 1 (s.vec .DYN) (s.vec .REG) := by
  refine ⟨(init Ex.c1).set .DYN (([1, 0, 0, 0, 0, 0, 0, 0, 0, 0] : List ℝ).map some), ?_, ?_⟩
  · have hr := Ex.read_inertial [1, 0, 0, 0, 0, 0, 0, 0, 0, 0] rfl
    have hseg : setSeg ((init Ex.c1).vec .DYN) (10 * 0) (([1, 0, 0, 0, 0, 0, 0, 0, 0, 0] : List ℝ).map some) =
        some (([1, 0, 0, 0, 0, 0, 0, 0, 0, 0] : List ℝ).map some) := setSeg_full (by simp [init, Cfg.size, Ex.c1])
    have hloop : dynLoop Ex.c1 [(some "link1", .map [(some "inertial", Ex.inertial "CoM_" [1, 0, 0, 0, 0, 0, 0, 0, 0, 0]),
        (some "friction", .map [])])] 0 (init Ex.c1) =
        .exc ((init Ex.c1).set .DYN (([1, 0, 0, 0, 0, 0, 0, 0, 0, 0] : List ℝ).map some)) := by
      unfold dynLoop
      rw [if_neg (by decide)]
      have h1 : (Yaml.map [(some "inertial", Ex.inertial "CoM_" [1, 0, 0, 0, 0, 0, 0, 0, 0, 0]), (some "friction", .map [])]).getC "inertial" =
        some (Ex.inertial "CoM_" [1, 0, 0, 0, 0, 0, 0, 0, 0, 0]) := by simp [Yaml.getC, Yaml.lookup]
      have h2 : (Yaml.map [(some "inertial", Ex.inertial "CoM_" [1, 0, 0, 0, 0, 0, 0, 0, 0, 0]), (some "friction", .map [])]).getC "friction" =
        some (.map []) := by simp [Yaml.getC, Yaml.lookup]
      rw [h1, yaml, yaml, hr, yaml, hseg, must]
      simp only []
      rw [h2, yaml]
      rfl
    simp only [runAll, Call.run, loadConf, Ex.badFile, yaml, loadBody_dyn, Yaml.isDef, Yaml.items, hloop, if_true]
    rfl
  · rintro ⟨-, -, h⟩
    rcases h 0 (by decide) with ⟨x, hx, hy⟩ | ⟨⟨k, hk, hk'⟩, -⟩
    · have h1 := hx 0 (by decide)
      have h2 := hy 0 (by decide)
      rw [set_vec_ne _ _ (by decide)] at h2
      simp [init, Cfg.size, Spec.linPar, Ex.c1] at h1 h2
      rw [← h1] at h2
      norm_num at h2
    · have : k = 0 ∨ k = 1 ∨ k = 2 ∨ k = 3 ∨ k = 4 ∨ k = 5 ∨ k = 6 ∨ k = 7 ∨ k = 8 ∨ k = 9 := by omega
      rcases this with rfl | rfl | rfl | rfl | rfl | rfl | rfl | rfl | rfl | rfl <;> simp at hk'

/-- A history meeting the hypotheses of `C30_partial`: load a complete file, then set `par_REG` with a non-zero mass, then use a setter with
a wrong size. -/
example : ∃ s, SafeRun Ex.c1 [.loadConf (some Ex.goodFile) true, .setREG (vecN 10 fun k => k + 1) true, .setREG [] true] (init Ex.c1) ∧
    runAll Ex.c1 [.loadConf (some Ex.goodFile) true, .setREG (vecN 10 fun k => k + 1) true, .setREG [] true] (init Ex.c1) = some s := by
  have hr := Ex.read_inertial [2, 1, 0, 0, 1, 0, 0, 1, 0, 1] rfl
  have hdl : Yaml.asVec Yaml.asD (Yaml.ofVec [some 3]) = some [some 3] := by simp [Yaml.ofVec, Yaml.asVec, Yaml.ofD, Yaml.asD]
  have hL : ∀ dyn, Ex.goodFile.getM "dynamics" = some dyn → dyn.isDef = true → ∃ L, (dyn.items.take Ex.c1.n).mapM readDynLink = some L ∧
      ∀ e ∈ L, ∀ dl, e.2 = some dl → Ex.c1.dlOrd ≤ dl.length := by
    intro dyn hd _
    simp [Ex.goodFile, Yaml.getM, Yaml.lookup] at hd
    subst hd
    refine ⟨[([2, 1, 0, 0, 1, 0, 0, 1, 0, 1].map some, some [some 3])], ?_, ?_⟩
    · simp [Yaml.items, Ex.c1, readDynLink, readLink, Yaml.getC, Yaml.lookup, hr, Yaml.isDef, hdl]
    · intro e he dl h
      simp at he
      subst he
      cases h
      simp [Ex.c1]
  have hm : RealMass Ex.c1.n (vecN 10 fun k => (k : ℝ) + 1) := ⟨fun k => (k : ℝ) + 1, rfl, fun i hi => by positivity⟩
  have hl10 : (vecN 10 fun k => (k : ℝ) + 1).length = 10 := length_vecN _ _
  have h1 : ∃ s1, (Call.loadConf (some Ex.goodFile) true).run Ex.c1 (init Ex.c1) = some s1 := by
    obtain ⟨L, hL, hdl⟩ := hL _ (by simp [Ex.goodFile, Yaml.getM, Yaml.lookup]; rfl) rfl
    have hok := dynLoop_ok _ 0 _ L (sized_init Ex.c1) (Nat.zero_le _) hL hdl
    have hsz : ∀ l o, dynLoop Ex.c1 l 0 (init Ex.c1) = o → o.All (Sized Ex.c1) := fun l o h => h ▸ sized_dynLoop l 0 _ (sized_init Ex.c1)
    have hsz := hsz _ _ hok
    simp only [Call.run, loadConf, Ex.goodFile, yaml, loadBody_dyn]
    rw [hok]
    simp only [Yaml.isDef, if_true, Out.bind]
    rw [updateREG_eq hsz]
    exact ⟨_, rfl⟩
  obtain ⟨s1, h1⟩ := h1
  have hs1 : Sized Ex.c1 s1 := sized_run (sized_init _) h1
  have hs2 := sized_run hs1 (run_setREG hs1 hl10)
  have hr1 : (s1.vec .REG).length = 10 := hs1 .REG id
  have hrun : ∃ s, runAll Ex.c1 [.loadConf (some Ex.goodFile) true, .setREG (vecN 10 fun k => k + 1) true, .setREG [] true] (init Ex.c1) =
      some s := by
    simp only [runAll, h1, Option.bind_some]
    rw [run_setREG hs1 hl10, Option.bind_some, run_setREG_wrong hs2 (by decide)]
    exact ⟨_, rfl⟩
  refine hrun.imp fun s hrun => ⟨⟨rfl, ?_, ?_⟩, hrun⟩
  · rintro y dyn ⟨⟩ hd hdef
    exact hL dyn hd hdef
  · intro s' h'
    rw [h1] at h'
    cases h'
    refine ⟨rfl, ?_, ?_⟩
    · rw [Call.Safe, if_pos (by rw [hl10, hr1])]
      exact hm
    · intro s' h'
      rw [run_setREG hs1 hl10] at h'
      cases h'
      refine ⟨rfl, ?_, fun _ _ => trivial⟩
      rw [Call.Safe, if_neg]
      · rw [set_vec_ne _ _ (by decide), set_vec_same]; exact hm
      · rw [set_vec_ne _ _ (by decide), set_vec_same]; simp

/-! ## C31

Full statement (false, see `C31_fails`, `C31_fails_DYN`): in every reachable state a setter called with a vector of the wrong size changes
nothing.  Missing in `C31_partial`: `set_par_DYN` and `set_par_REG` with update in states where the conversion is not the identity. -/

theorem varMember_eq (f : VarField) : Spec.varMember f = f.field := by cases f <;> rfl
theorem parMember_eq (f : ParField) : Spec.parMember f = f.field := by cases f <;> rfl

/-- `WrongSize`, setter by setter. -/
theorem wrongSize_cases {s : Obj} {k : Call} (h : Spec.WrongSize s k) : match k with
    | .setVar f v => v.length ≠ (s.vec f.field).length
    | .setPar f v => v.length ≠ (s.vec f.field).length
    | .setArguments a b d e => ¬ (a.length = (s.vec .q).length ∧ b.length = (s.vec .dq).length ∧ d.length = (s.vec .dqr).length ∧
        e.length = (s.vec .ddqr).length)
    | .setDH _ v => v.length ≠ (s.vec .DH).length
    | .setDYN v _ => v.length ≠ (s.vec .DYN).length
    | .setREG v _ => v.length ≠ (s.vec .REG).length
    | _ => False := by
  obtain ⟨p, hp, hl⟩ := h
  cases k <;> simp only [Spec.stores, List.mem_cons, List.not_mem_nil, or_false, varMember_eq, parMember_eq] at hp ⊢
  case setArguments => rcases hp with rfl | rfl | rfl | rfl <;> tauto
  all_goals subst hp; exact hl

/-- **C31** (partial).  In every reachable state a setter called with a vector of the wrong size leaves the object unchanged, for
`set_par_DYN` with update provided that `par_DYN` holds numbers and `par_REG` is its image, and for `set_par_REG` with update provided that
moreover no mass is zero. -/
theorem C31_partial (c : Cfg) (ks : List Call) {s : Obj} (e : runAll c ks (init c) = some s) (k : Call) (hw : Spec.WrongSize s k)
    (hD : ∀ v, k = .setDYN v true → ∃ p, s.vec .DYN = vecN (10 * c.n) p ∧ Spec.Consistent c.n (s.vec .DYN) (s.vec .REG))
    (hR : ∀ v, k = .setREG v true → ∃ p, s.vec .DYN = vecN (10 * c.n) p ∧ Spec.Consistent c.n (s.vec .DYN) (s.vec .REG) ∧
      ∀ i < c.n, p (10 * i) ≠ 0) :
    k.run c s = some s := by
  have hsz := sized_runAll ks (sized_init c) e
  replace hw := wrongSize_cases hw
  cases k with
  | setVar f v =>
    have : v.length ≠ f.expected c := by rw [expected_eq, ← hsz f.field (by cases f <;> exact id)]; exact hw
    simp only [Call.run, setVar, if_neg this]; rfl
  | setPar f v =>
    simp only [Call.run, setPar]
    rw [if_neg hw]; rfl
  | setArguments a b d g =>
    have h1 : (s.vec .q).length = c.n := hsz .q id
    have h2 : (s.vec .dq).length = c.n := hsz .dq id
    have h3 : (s.vec .dqr).length = c.n := hsz .dqr id
    have h4 : (s.vec .ddqr).length = c.n := hsz .ddqr id
    simp only [h1, h2, h3, h4] at hw
    simp only [Call.run, setArguments, if_neg hw]; rfl
  | setDH k v =>
    simp only [Call.run, setDH]
    rw [if_neg hw]; rfl
  | setDYN v u =>
    cases u with
    | false =>
      simp only [Call.run, setDYN, Bool.false_eq_true, if_false]
      rw [if_neg hw]; rfl
    | true =>
      obtain ⟨p, hp, hc⟩ := hD v rfl
      have hd : (s.vec .DYN).length = 10 * c.n := hsz .DYN id
      rw [run_setDYN_wrong hsz (by rw [← hd]; exact hw), hp, ← eq_of_consistent (by rw [← hp]; exact hc), set_self]
  | setREG v u =>
    cases u with
    | false =>
      simp only [Call.run, setREG, Bool.false_eq_true, if_false]
      rw [if_neg hw]; rfl
    | true =>
      obtain ⟨p, hp, hc, hm⟩ := hR v rfl
      have hr : (s.vec .REG).length = 10 * c.n := hsz .REG id
      have hreg : s.vec .REG = _ := eq_of_consistent (by rw [← hp]; exact hc)
      rw [run_setREG_wrong hsz (by rw [← hr]; exact hw), hreg, dyn_reg_of_realMass ⟨p, rfl, hm⟩, ← hp,
        set_self]
  | loadREG f u => exact hw.elim
  | loadConf f u => exact hw.elim
  | resizeVariables => exact hw.elim

theorem set_eq_self {s : Obj} {f : Field} {v : List Num} : some (s.set f v) = some s ↔ v = s.vec f := by
  refine ⟨fun h => ?_, fun h => by rw [h, set_self]⟩
  have := congrArg (fun o => o.vec f) (Option.some.inj h)
  rwa [set_vec_same] at this

/-- If the conversion to `par_DYN` gives numbers, `par_REG` holds numbers and its masses are not zero. -/
theorem realMass_of_dyn {n : ℕ} {r : List Num} {p : ℕ → ℝ} (hr : r.length = 10 * n) (h : dynOfRegW n r = vecN (10 * n) p) : RealMass n r := by
  have key : ∀ i < n, ∀ k < 10, (linkDyn steinerWrap (seg r i))[k]? = some (some (p (10 * i + k))) := fun i hi k hk => by
    have h1 : (dynOfRegW n r)[10 * i + k]? = (linkDyn steinerWrap (seg r i))[k]? := getElem?_flatMap_block (fun i => length_linkDyn _ _) hi hk
    have h2 : 10 * i + k < 10 * n := by omega
    rw [← h1, h, vecN, List.getElem?_map, List.getElem?_range h2]; rfl
  have hdiv : ∀ {x y : Num} {z : ℝ}, Num.div x y = some z → (∃ a, x = some a) ∧ ∃ b, y = some b ∧ b ≠ 0 := by
    intro x y z e
    cases x with
    | none => cases y <;> exact absurd e (by simp [Num.div])
    | some a =>
      cases y with
      | none => exact absurd e (by simp [Num.div])
      | some b =>
        refine ⟨⟨a, rfl⟩, b, rfl, fun h0 => ?_⟩
        subst h0
        simp [Num.div] at e
  have hsub : ∀ {x y : Num} {z : ℝ}, Num.sub x y = some z → ∃ a, x = some a := by
    intro x y z e
    cases x with
    | none => cases y <;> exact absurd e (by simp [Num.sub])
    | some a => exact ⟨a, rfl⟩
  have hreal : ∀ i < n, ∀ k < 10, ∃ a, seg r i k = some a := fun i hi k hk => by
    have hk' := key i hi k hk
    interval_cases k
    · exact ⟨_, Option.some.inj hk'⟩
    · exact (hdiv (Option.some.inj hk')).1
    · exact (hdiv (Option.some.inj hk')).1
    · exact (hdiv (Option.some.inj hk')).1
    all_goals exact hsub (Option.some.inj hk')
  refine ⟨fun k => (r.getD k none).getD 0, ?_, fun i hi => ?_⟩
  · refine List.ext_getElem? fun k => ?_
    rcases lt_or_ge k (10 * n) with hk | hk
    · obtain ⟨a, ha⟩ := hreal (k / 10) (by omega) (k % 10) (by omega)
      rw [seg, show 10 * (k / 10) + k % 10 = k by omega] at ha
      rw [vecN, List.getElem?_map, List.getElem?_range hk, Option.map_some, ha]
      rw [List.getD_eq_getElem?_getD, List.getElem?_eq_getElem (by omega)] at ha
      rw [List.getElem?_eq_getElem (by omega)]
      exact congrArg some ha
    · rw [List.getElem?_eq_none (by omega), List.getElem?_eq_none (by rw [length_vecN]; exact hk)]
  · obtain ⟨b, hb, h0⟩ := (hdiv (Option.some.inj (key i hi 1 (by decide)))).2
    have hb' : r.getD (10 * i) none = some b := hb
    show (r.getD (10 * i) none).getD 0 ≠ 0
    rw [hb']
    exact h0

/-- **C31**: the exact conditions for the two setters that convert.  In every reachable state in which `par_DYN` holds numbers, a wrong size leaves the
object unchanged exactly when `par_REG` is the image of `par_DYN`, and for `set_par_REG` when moreover no mass is zero. -/
theorem C31_iff (c : Cfg) (ks : List Call) {s : Obj} (e : runAll c ks (init c) = some s) {p : ℕ → ℝ} (hp : s.vec .DYN = vecN (10 * c.n) p)
    {v : List Num} (hv : v.length ≠ 10 * c.n) :
    ((Call.setDYN v true).run c s = some s ↔ Spec.Consistent c.n (s.vec .DYN) (s.vec .REG)) ∧
    ((Call.setREG v true).run c s = some s ↔ Spec.Consistent c.n (s.vec .DYN) (s.vec .REG) ∧ ∀ i < c.n, p (10 * i) ≠ 0) := by
  have hsz := sized_runAll ks (sized_init c) e
  have hd : (s.vec .DYN).length = 10 * c.n := hsz .DYN id
  have hr : (s.vec .REG).length = 10 * c.n := hsz .REG id
  rw [run_setDYN_wrong hsz hv, run_setREG_wrong hsz hv, set_eq_self, set_eq_self]
  refine ⟨⟨fun h => consistent_of_eq hd h.symm, fun h => ?_⟩, fun h => ?_, fun ⟨h, hm⟩ => ?_⟩
  · rw [hp] at h ⊢
    exact (eq_of_consistent h).symm
  · have hm := realMass_of_dyn hr (h.trans hp)
    have h1 := reg_dyn_of_realMass hm
    rw [h] at h1
    refine ⟨consistent_of_eq hd h1.symm, fun i hi => ?_⟩
    obtain ⟨r, hr', hm'⟩ := hm
    have h2 : (linkDyn steinerWrap (seg (s.vec .REG) i))[0]? = some (some (p (10 * i))) := by
      have h3 : (dynOfRegW c.n (s.vec .REG))[10 * i + 0]? = (linkDyn steinerWrap (seg (s.vec .REG) i))[0]? :=
        getElem?_flatMap_block (fun i => length_linkDyn _ _) hi (by decide)
      have h4 : 10 * i + 0 < 10 * c.n := by omega
      rw [← h3, h, hp, vecN, List.getElem?_map, List.getElem?_range h4]; rfl
    have h5 : seg (s.vec .REG) i 0 = some (p (10 * i)) := Option.some.inj h2
    rw [hr', seg_vecN (by omega)] at h5
    have h6 : r (10 * i) = p (10 * i) := Option.some.inj h5
    rw [← h6]
    exact hm' i hi
  · have hreg : s.vec .REG = _ := eq_of_consistent (by rw [← hp]; exact h)
    rw [hreg, dyn_reg_of_realMass ⟨p, rfl, hm⟩, hp]

/-- `set_par_REG` with a wrong size changes a fresh object. -/
theorem C31_fails : ∃ (c : Cfg) (k : Call) (s' : Obj), Spec.WrongSize (init c) k ∧ k.run c (init c) = some s' ∧ s'.vec .DYN ≠ (init c).vec .DYN := by
  refine ⟨⟨1, 0, 0, 0, 0, 0⟩, .setREG [] true, _, by simp [Spec.WrongSize, Spec.stores, init, Cfg.size], run_setREG_wrong (sized_init _) (by simp), ?_⟩
  intro h
  have := congrArg (fun l => l[1]?) h
  simp [init, Cfg.size, dynOfRegW, linkDyn, seg, List.replicate] at this

/-- `set_par_DYN` with a wrong size changes an object whose `par_REG` was set without update. -/
theorem C31_fails_DYN : ∃ (c : Cfg) (ks : List Call) (s s' : Obj) (k : Call), runAll c ks (init c) = some s ∧ Spec.WrongSize s k ∧
    (∃ v, k = .setDYN v true) ∧ k.run c s = some s' ∧ s'.vec .REG ≠ s.vec .REG := by
  refine ⟨⟨1, 0, 0, 0, 0, 0⟩, [.setREG (vecN 10 fun _ => 1) false], (init ⟨1, 0, 0, 0, 0, 0⟩).set .REG (vecN 10 fun _ => 1), _,
    .setDYN [] true, ?_, ?_, ⟨_, rfl⟩, run_setDYN_wrong ?_ (by simp), ?_⟩
  · simp [runAll, Call.run, setREG, init, Cfg.size, Out.caught]
  · simp only [Spec.WrongSize, Spec.stores, List.mem_singleton, exists_eq_left]; rw [set_vec_ne _ _ (by decide)]; simp [init, Cfg.size]
  · exact (sized_init _).set fun _ => by simp [Cfg.size]
  · intro h
    have := congrArg (fun l => l[0]?) h
    rw [set_vec_same, set_vec_same, set_vec_ne _ _ (by decide)] at this
    simp [init, Cfg.size, regOfDynW, linkReg, seg, List.replicate, vecN] at this

/-- Hypotheses of `C31_partial` met by a state with a non-zero mass. -/
example : ∃ s, runAll Ex.c1 [.setREG (vecN 10 fun k => k + 1) true] (init Ex.c1) = some s ∧ Spec.WrongSize s (.setREG [] true) ∧
    ∃ p, s.vec .DYN = vecN (10 * Ex.c1.n) p ∧ Spec.Consistent Ex.c1.n (s.vec .DYN) (s.vec .REG) ∧ ∀ i < Ex.c1.n, p (10 * i) ≠ 0 := by
  have hp : ∀ i < 1, (fun k : ℕ => (k : ℝ) + 1) (10 * i) ≠ 0 := fun i hi => by positivity
  refine ⟨_, by rw [runAll, run_setREG (sized_init _) (by rw [length_vecN]; rfl)]; rfl, ?_, dynPar fun k => (k : ℝ) + 1, ?_, ?_, ?_⟩
  · simp only [Spec.WrongSize, Spec.stores, List.mem_singleton, exists_eq_left]; rw [set_vec_ne _ _ (by decide), set_vec_same]; simp
  · rw [set_vec_same, dynOfRegW_eq]
    exact dynOfReg_vecN (n := 1) hp
  · rw [set_vec_same, set_vec_ne _ _ (by decide), set_vec_same]
    exact consistent_of_eq (length_dynOfRegW _ _) (reg_dyn_of_realMass (n := 1) ⟨fun k => (k : ℝ) + 1, rfl, hp⟩).symm
  · intro i hi
    have : i = 0 := by simp [Ex.c1] at hi; exact hi
    subst this
    simp [dynPar, invPar]

/-- `C31_iff` on the fresh object of one joint: `par_REG` is the image of `par_DYN`, but the mass is zero. -/
example : (Call.setDYN [] true).run Ex.c1 (init Ex.c1) = some (init Ex.c1) ∧ (Call.setREG [] true).run Ex.c1 (init Ex.c1) ≠ some (init Ex.c1) := by
  have h0 : (init Ex.c1).vec .DYN = vecN (10 * Ex.c1.n) fun _ => 0 := by simp [init, Cfg.size, Ex.c1, vecN, List.replicate, List.range, List.range.loop]
  obtain ⟨h1, h2⟩ := C31_iff Ex.c1 [] rfl h0 (v := []) (by simp [Ex.c1])
  refine ⟨h1.mpr (consistent_of_eq (by rw [h0, length_vecN]) ?_), fun h => (h2.mp h).2 0 (by decide) rfl⟩
  simp [init, Cfg.size, Ex.c1, regOfDynW, linkReg, seg, List.replicate, steinerWrap, up6, hatN, mul3, tr3, scale3]

/-! ## C55 -/

/-- **C55**.  In every reachable state a setter given vectors of the right size stores them in the members it is named after; apart from these and
the member recomputed by an update nothing changes.  For `set_par_DHtable` the argument must be a column (`C55_fails_DH`). -/
theorem C55 (c : Cfg) (ks : List Call) {s : Obj} (e : runAll c ks (init c) = some s) (k : Call) (hk : Spec.stores k ≠ [])
    (hw : ¬ Spec.WrongSize s k) (hc : ∀ m v, k = .setDH m v → m = 1) :
    ∃ s', k.run c s = some s' ∧ (∀ p ∈ Spec.stores k, s'.vec p.1 = p.2) ∧
      (∀ f, f ∉ (Spec.stores k).map Prod.fst → f ∉ Spec.recomputes k → s'.vec f = s.vec f) ∧ s'.symb = s.symb := by
  have hsz := sized_runAll ks (sized_init c) e
  have hw' : ∀ p ∈ Spec.stores k, p.2.length = (s.vec p.1).length := fun p hp => by
    by_contra h
    exact hw ⟨p, hp, h⟩
  cases k with
  | setVar f v =>
    have hv := hw' _ (List.mem_singleton.2 rfl)
    simp only [varMember_eq] at hv
    have : v.length = f.expected c := by rw [expected_eq, ← hsz f.field (by cases f <;> exact id)]; exact hv
    refine ⟨s.set f.field v, by simp only [Call.run, setVar, if_pos this]; rfl, fun p hp => ?_, fun g hg _ => ?_, rfl⟩
    · rw [List.mem_singleton.1 hp, varMember_eq, set_vec_same]
    · simp only [Spec.stores, List.map_cons, List.map_nil, List.mem_singleton, varMember_eq] at hg
      rw [set_vec_ne _ _ hg]
  | setPar f v =>
    have hv := hw' _ (List.mem_singleton.2 rfl)
    simp only [parMember_eq] at hv
    refine ⟨s.set f.field v, by simp only [Call.run, setPar, if_pos hv]; rfl, fun p hp => ?_, fun g hg _ => ?_, rfl⟩
    · rw [List.mem_singleton.1 hp, parMember_eq, set_vec_same]
    · simp only [Spec.stores, List.map_cons, List.map_nil, List.mem_singleton, parMember_eq] at hg
      rw [set_vec_ne _ _ hg]
  | setArguments a b d g =>
    have h1 := hw' (.q, a) (by simp [Spec.stores])
    have h2 := hw' (.dq, b) (by simp [Spec.stores])
    have h3 := hw' (.dqr, d) (by simp [Spec.stores])
    have h4 := hw' (.ddqr, g) (by simp [Spec.stores])
    rw [hsz _ (by exact id)] at h1 h2 h3 h4
    have hh : a.length = c.n ∧ b.length = c.n ∧ d.length = c.n ∧ g.length = c.n := ⟨h1, h2, h3, h4⟩
    refine ⟨(((s.set .q a).set .dq b).set .dqr d).set .ddqr g, by simp only [Call.run, setArguments, if_pos hh]; rfl, fun p hp => ?_, fun f hf _ => ?_, rfl⟩
    · simp only [Spec.stores, List.mem_cons, List.not_mem_nil, or_false] at hp
      rcases hp with rfl | rfl | rfl | rfl <;> simp [Obj.set]
    · simp only [Spec.stores, List.map_cons, List.map_nil, List.mem_cons, List.not_mem_nil, or_false, not_or] at hf
      rw [set_vec_ne _ _ hf.2.2.2, set_vec_ne _ _ hf.2.2.1, set_vec_ne _ _ hf.2.1, set_vec_ne _ _ hf.1]
  | setDH m v =>
    have hv := hw' _ (List.mem_singleton.2 rfl)
    have hm := hc m v rfl
    refine ⟨s.set .DH v, by simp only [Call.run, setDH]; rw [if_pos hv, if_pos hm]; rfl, fun p hp => ?_, fun g hg _ => ?_, rfl⟩
    · rw [List.mem_singleton.1 hp, set_vec_same]
    · simp only [Spec.stores, List.map_cons, List.map_nil, List.mem_singleton] at hg
      rw [set_vec_ne _ _ hg]
  | setDYN v u =>
    have hv := hw' _ (List.mem_singleton.2 rfl)
    cases u with
    | false =>
      refine ⟨s.set .DYN v, by simp only [Call.run, setDYN]; rw [if_pos hv]; rfl, fun p hp => ?_, fun g hg _ => ?_, rfl⟩
      · rw [List.mem_singleton.1 hp, set_vec_same]
      · simp only [Spec.stores, List.map_cons, List.map_nil, List.mem_singleton] at hg
        rw [set_vec_ne _ _ hg]
    | true =>
      refine ⟨_, run_setDYN hsz (by rw [hv]; exact hsz .DYN id), fun p hp => ?_, fun g hg hg' => ?_, rfl⟩
      · obtain rfl := List.mem_singleton.1 hp; exact (set_vec_ne _ _ (by simp)).trans (set_vec_same _ _ _)
      · simp only [Spec.stores, Spec.recomputes, List.map_cons, List.map_nil, List.mem_singleton] at hg hg'
        rw [set_vec_ne _ _ hg', set_vec_ne _ _ hg]
  | setREG v u =>
    have hv := hw' _ (List.mem_singleton.2 rfl)
    cases u with
    | false =>
      refine ⟨s.set .REG v, by simp only [Call.run, setREG]; rw [if_pos hv]; rfl, fun p hp => ?_, fun g hg _ => ?_, rfl⟩
      · rw [List.mem_singleton.1 hp, set_vec_same]
      · simp only [Spec.stores, List.map_cons, List.map_nil, List.mem_singleton] at hg
        rw [set_vec_ne _ _ hg]
    | true =>
      refine ⟨_, run_setREG hsz (by rw [hv]; exact hsz .REG id), fun p hp => ?_, fun g hg hg' => ?_, rfl⟩
      · obtain rfl := List.mem_singleton.1 hp; exact (set_vec_ne _ _ (by simp)).trans (set_vec_same _ _ _)
      · simp only [Spec.stores, Spec.recomputes, List.map_cons, List.map_nil, List.mem_singleton] at hg hg'
        rw [set_vec_ne _ _ hg', set_vec_ne _ _ hg]
  | loadREG f u => exact absurd rfl hk
  | loadConf f u => exact absurd rfl hk
  | resizeVariables => exact absurd rfl hk

/-- `set_par_DHtable` takes a matrix; given the table as a matrix with four columns, its size is accepted, and the assignment to the member vector
is outside the contract of Eigen. -/
theorem C55_fails_DH : ∃ (c : Cfg) (k : Call), Spec.stores k ≠ [] ∧ ¬ Spec.WrongSize (init c) k ∧ k.run c (init c) = none := by
  refine ⟨⟨1, 0, 0, 0, 0, 0⟩, .setDH 4 [some 1, some 2, some 3, some 4], by simp [Spec.stores], ?_, ?_⟩
  · simp [Spec.WrongSize, Spec.stores, init, Cfg.size]
  · simp [Call.run, setDH, init, Cfg.size, Out.caught]

example : ¬ Spec.WrongSize (init Ex.c1) (.setVar .q (vecN Ex.c1.n fun _ => 2)) ∧ Spec.stores (.setVar .q (vecN Ex.c1.n fun _ => 2)) ≠ [] := by
  simp [Spec.WrongSize, Spec.stores, Spec.varMember, init, Cfg.size]

end Thunder.Wrap
