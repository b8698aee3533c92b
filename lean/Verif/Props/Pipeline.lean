import Verif.Lemmas.Live
import Verif.Lemmas.User
import Verif.Props.FileOf

/-!
# The robot built by `robot_from_file`: C35, C37
-/

open scoped Classical

namespace Thunder

open Spec Act Robot

noncomputable section

namespace Robot

variable {c : Conf} {r : Robot} {L : Set Reg}

theorem Done.registered (h : Done c r L) {g : Reg} (hg : g ∈ L) : Spec.Registered r g.name := by
  obtain ⟨ks, hr⟩ := h.reg g hg
  refine ⟨_, _, _, hr.funArgs, hr.funs, hr.model, by simp [SMap.has, hr.funDescr], hr.nodup, fun i _ j _ v hv => mem_flatten_vars.2 (hr.over i j hv), ?_⟩
  rw [List.forall₂_map_left_iff, List.forall₂_map_right_iff, List.forall₂_same]
  exact fun k hk => h.model k (Key.listed_of_here (hr.here k hk))

theorem Done.get (h : Done c r L) {g : Reg} (hg : g ∈ L) :
    ∃ r', Robot.get g.name r = .ok ⟨g.expr.rows, g.expr.cols, g.expr.elements.map fun e => some (e.eval (fileVal c))⟩ r' := by
  obtain ⟨ks, hr⟩ := h.reg g hg
  obtain ⟨r', e, _⟩ := get_ok (ρ := fileVal c) hr.funArgs hr.funs hr.model (fun i _ j _ v hv => mem_flatten_vars.2 (hr.over i j hv)) (by
    rw [List.forall₂_map_left_iff, List.forall₂_map_right_iff, List.forall₂_same]
    exact fun k _ => (h.arg k).trans (kept_eq k))
  exact ⟨r', e⟩

end Robot

/-! ## C35 -/

/-- C35: for a well-formed configuration and any choice of symbolic parameters, `robot_from_file` succeeds, registers exactly the functions of the
library, and each of them can be evaluated. -/
theorem C35 [Fl] {y : Yaml} {c : Conf} (h : Describes y c) (hj : JointsOk c) {name : String} (hnm : RobotName name) : ∃ r, robotFromFile name (some y) true = .ok r ∧
    (∀ f, r.funArgs.has f = true ↔ f ∈ library c) ∧ ∀ f ∈ library c, Spec.Registered r f ∧ ∃ m r', Robot.get f r = .ok m r' ∧ Full m := by
  obtain ⟨r, e, hd⟩ := fromFile_ok h hj.1 (typed_of hj) hnm
  have hreg : ∀ f ∈ library c, ∃ g ∈ Fn.lib c, g.name = f := by
    intro f hf
    obtain ⟨F, hv, rfl⟩ := Fn.mem_library.1 hf
    exact ⟨F.reg c, ⟨F, hv, rfl⟩, rfl⟩
  refine ⟨r, e, fun f => ⟨fun hf => ?_, fun hf => ?_⟩, fun f hf => ?_⟩
  · obtain ⟨g, ⟨F, hv, rfl⟩, rfl⟩ := hd.only f hf
    exact Fn.mem_library_of hv
  · obtain ⟨g, hg, rfl⟩ := hreg f hf
    obtain ⟨ks, hr⟩ := hd.reg g hg
    simp [SMap.has, hr.funArgs]
  · obtain ⟨g, hg, rfl⟩ := hreg f hf
    refine ⟨hd.registered hg, ?_⟩
    obtain ⟨r', e'⟩ := hd.get hg
    refine ⟨_, r', e', by simp [length_elements], fun x hx => ?_⟩
    obtain ⟨a, _, rfl⟩ := List.mem_map.1 hx
    exact ⟨_, rfl⟩

/-- C35: the name of the robot decides: `robot_from_file` succeeds exactly when it consists of letters, digits and single underscores, begins with a
letter and does not end with an underscore (the check is made by CasADi when the first function is added). -/
theorem C35_name [Fl] {y : Yaml} {c : Conf} (h : Describes y c) (hj : JointsOk c) (name : String) :
    (∃ r, robotFromFile name (some y) true = .ok r) ↔ RobotName name :=
  ⟨fun ⟨_, e⟩ => robotName_of_ok h e, fun hnm => by
    obtain ⟨r, e, -⟩ := fromFile_ok h hj.1 (typed_of hj) hnm
    exact ⟨r, e⟩⟩

/-- Names that are accepted, and names that are not. -/
example : RobotName "franka_7dof" ∧ ¬ RobotName "7dof" ∧ ¬ RobotName "my-robot" ∧ ¬ RobotName "arm_" := by
  refine ⟨robotName_of_check (f := "M") (by decide +kernel), fun h => ?_, fun h => ?_, fun h => h.last (by decide +kernel)⟩
  · obtain ⟨x, l, e, hx⟩ := h.first
    rw [show "7dof".toList = '7' :: "dof".toList by decide +kernel] at e
    obtain ⟨rfl, -⟩ := List.cons.inj e
    revert hx; decide
  · rcases h.chars '-' (by decide +kernel) with h | h <;> revert h <;> decide

namespace Ex

/-- Two joints, the second with an elastic transmission; every third parameter is symbolic. -/
def mixed : Conf where
  types := ["R", "P_SEA"]
  elastic := true
  kO := 2
  dO := 1
  dmO := 1
  dlO := 2
  dh := fun i => i
  w2l := fun i => i / 2
  ee := fun i => i / 4
  g := fun i => if i = 2 then -9.81 else 0
  dyn := fun i => i + 1
  dl := fun i => i
  K := fun i => 100 * i
  D := fun i => i
  Dm := fun i => i
  Mm := fun i => i + 1
  fdh := fun i => if i % 3 = 0 then 1 else 0
  fw2l := fun i => if i % 3 = 1 then 1 else 0
  fee := fun i => if i % 3 = 2 then 1 else 0
  fg := fun i => if i % 3 = 2 then 1 else 0
  fdyn := fun i => if i % 3 = 0 then 1 else 0
  fdl := fun i => if i % 3 = 1 then 1 else 0
  fK := fun i => if i % 3 = 0 then 1 else 0
  fD := fun _ => 0
  fDm := fun _ => 1
  fMm := fun _ => 1

theorem describes_mixed : Describes (fileOf mixed) mixed := describes_fileOf (fun h => nomatch h)
theorem joints_mixed : JointsOk mixed := ⟨by decide, by decide⟩

example : Describes (fileOf mixed) mixed ∧ JointsOk mixed := ⟨describes_mixed, joints_mixed⟩

/-- The list of functions depends on the flags. -/
example : "reg_k" ∈ library mixed ∧ "reg_d" ∉ library mixed ∧ "K3" ∈ library mixed ∧ "K5" ∉ library mixed := by
  refine ⟨?_, ?_, ?_, ?_⟩
  · exact Fn.name_mem (f := .regK).2 (vars_ne.2 ⟨0, by decide, by decide⟩)
  · refine fun h => Fn.name_mem (f := .regD).1 h ?_
    decide
  · exact Fn.name_mem (f := .K 1).2 ⟨rfl, by decide⟩
  · exact fun h => absurd (Fn.name_mem (f := .K 2).1 h).2 (by decide)

end Ex

/-! ## C37 -/

namespace Robot

theorem length_kept (c : Conf) (k : Key) : (kept c k).length = (k.idx c).length := List.length_map _

theorem idx_full {c : Conf} {k : Key} (h : ∀ i < k.size c, k.flag c i ≠ 0) : k.idx c = List.range (k.size c) :=
  List.filter_eq_self.2 fun i hi => by simpa using h i (List.mem_range.1 hi)

theorem idx_short {c : Conf} {k : Key} {i : ℕ} (hi : i < k.size c) (h : k.flag c i = 0) : (k.idx c).length < k.size c := by
  have := List.length_filter_lt_length_iff_exists (p := fun i => decide (k.flag c i ≠ 0)) (l := List.range (k.size c))
  rw [List.length_range] at this
  exact this.2 ⟨i, List.mem_range.2 hi, by simp [h]⟩

theorem getPar10_run (key : String) (r : Robot) {v : List Num} (h : fill (10 * r.n) (r.arg key) = some v) :
    getPar10 key r = .ok v (r.touchArg key) := by
  unfold getPar10
  rw [bind_ok (modify_run _ _), bind_ok (read_run _), arg_touch]
  show ofIdx (fill (10 * r.n) _) _ = _
  rw [h]
  rfl

end Robot

/-- C37 when every inertial parameter is symbolic: `get_par_DYN` returns the configured parameters and `set_par_DYN` stores any full vector.
For all other patterns it is false (`C37_fails`). -/
theorem C37_partial [Fl] {y : Yaml} {c : Conf} (h : Describes y c) (hj : JointsOk c) (hs : ∀ i < 10 * c.n, c.fdyn i ≠ 0) {name : String} (hnm : RobotName name) :
    ∃ r, robotFromFile name (some y) true = .ok r ∧ (∃ r', getParDYN r = .ok (nums (10 * c.n) c.dyn) r') ∧
      ∀ v : List Num, v.length = 10 * c.n → ∃ r', setParDYN v r = .ok 1 r' ∧ r'.arg "par_DYN" = v := by
  obtain ⟨r, e, hd⟩ := fromFile_ok h hj.1 (typed_of hj) hnm
  have hsz : Key.DYN.size c = 10 * c.n := Nat.mul_comm _ _
  have ha : r.arg "par_DYN" = nums (10 * c.n) c.dyn := by
    refine (hd.arg .DYN).trans ?_
    rw [kept, idx_full (k := .DYN) (by rw [hsz]; exact hs), hsz]
    rfl
  have hl : (nums (10 * c.n) c.dyn).length = 10 * r.n := by rw [hd.n]; simp [nums]
  refine ⟨r, e, ⟨_, getPar10_run _ _ (by rw [ha, fill, if_pos hl.le, hl]; simp)⟩, fun v hv => ⟨r.setArgs "par_DYN" v, ?_, ?_⟩⟩
  · unfold setParDYN
    rw [bind_ok (read_run _)]
    exact setSized_ok (by rw [ha, hl]) (by rw [hv, hd.n])
  · rw [arg_setArgs, if_pos rfl]

/-- C37 fails for every configuration with a numeric inertial parameter: `get_par_DYN` returns a vector with undetermined entries, and `set_par_DYN`
throws for every full vector. -/
theorem C37_fails [Fl] {y : Yaml} {c : Conf} (h : Describes y c) (hj : JointsOk c) {i : ℕ} (hi : i < 10 * c.n) (hs : c.fdyn i = 0) {name : String} (hnm : RobotName name) :
    ∃ r, robotFromFile name (some y) true = .ok r ∧ (∃ r' k, 0 < k ∧
        getParDYN r = .ok (((symIdx (flagsL (10 * c.n) c.fdyn) (10 * c.n)).map fun j => some (c.dyn j)) ++ List.replicate k none) r') ∧
      ∀ v : List Num, v.length = 10 * c.n → ∃ r', setParDYN v r = .exc r' := by
  obtain ⟨r, e, hd⟩ := fromFile_ok h hj.1 (typed_of hj) hnm
  have hsz : Key.DYN.size c = 10 * c.n := Nat.mul_comm _ _
  have ha : r.arg "par_DYN" = (symIdx (flagsL (10 * c.n) c.fdyn) (10 * c.n)).map fun j => some (c.dyn j) := by
    refine (hd.arg .DYN).trans ?_
    rw [← hsz]
    show kept c .DYN = (symIdx (Key.DYN.flags c) (Key.DYN.size c)).map _
    rw [Key.symIdx_flags]
    rfl
  have hl : (r.arg "par_DYN").length < 10 * r.n := by
    rw [show r.arg "par_DYN" = _ from hd.arg .DYN, length_kept, hd.n, ← hsz]
    exact idx_short (k := .DYN) (by rw [hsz]; exact hi) hs
  refine ⟨r, e, ⟨_, 10 * r.n - (r.arg "par_DYN").length, by omega, getPar10_run _ _ (by rw [fill, if_pos hl.le, ← ha])⟩, fun v hv => ?_⟩
  have hv' : v.length = 10 * r.n := by rw [hv, hd.n]
  refine ⟨(r.touchArg "par_DYN").setArgs "par_DYN" (v.take (r.arg "par_DYN").length), ?_⟩
  unfold setParDYN
  rw [bind_ok (read_run _)]
  unfold setSized
  rw [bind_ok (modify_run _ _), if_pos hv']
  refine bind_exc ?_
  unfold assign
  rw [bind_ok (read_run _), arg_touch]
  simp only [show ¬ v.length ≤ (r.arg "par_DYN").length by omega, if_false]
  rw [bind_ok (modify_run _ _)]
  rfl

/-- **C37**: the exact condition.  For a robot returned by `robot_from_file`, `get_par_DYN` returns the configured parameters if and only if every inertial
parameter is symbolic, and this is also the condition for `set_par_DYN` to accept every full vector, and to accept any full vector at all. -/
theorem C37_iff [Fl] {y : Yaml} {c : Conf} (h : Describes y c) (hj : JointsOk c) {name : String} {r : Robot}
    (e : robotFromFile name (some y) true = .ok r) :
    ((∃ r', getParDYN r = .ok (nums (10 * c.n) c.dyn) r') ↔ ∀ i < 10 * c.n, c.fdyn i ≠ 0) ∧
    ((∀ v : List Num, v.length = 10 * c.n → ∃ r', setParDYN v r = .ok 1 r' ∧ r'.arg "par_DYN" = v) ↔ ∀ i < 10 * c.n, c.fdyn i ≠ 0) ∧
    ((∃ (v : List Num) (x : ℤ) (r' : Robot), v.length = 10 * c.n ∧ setParDYN v r = .ok x r') ↔ ∀ i < 10 * c.n, c.fdyn i ≠ 0) := by
  have hnm := robotName_of_ok h e
  have hyes : (∀ i < 10 * c.n, c.fdyn i ≠ 0) → (∃ r', getParDYN r = .ok (nums (10 * c.n) c.dyn) r') ∧
      ∀ v : List Num, v.length = 10 * c.n → ∃ r', setParDYN v r = .ok 1 r' ∧ r'.arg "par_DYN" = v := fun hs => by
    obtain ⟨r', e', h1, h2⟩ := C37_partial h hj hs hnm
    cases e.symm.trans e'
    exact ⟨h1, h2⟩
  have hno : (¬ ∀ i < 10 * c.n, c.fdyn i ≠ 0) → (¬ ∃ r', getParDYN r = .ok (nums (10 * c.n) c.dyn) r') ∧
      ∀ v : List Num, v.length = 10 * c.n → ∃ r', setParDYN v r = .exc r' := fun hs => by
    push Not at hs
    obtain ⟨i, hi, hs⟩ := hs
    obtain ⟨r', e', ⟨r1, k, hk, h1⟩, h2⟩ := C37_fails h hj hi hs hnm
    cases e.symm.trans e'
    refine ⟨fun ⟨r2, h3⟩ => ?_, h2⟩
    rw [h1] at h3
    have h4 : (none : Num) ∈ nums (10 * c.n) c.dyn := by
      rw [← (Res.ok.inj h3).1]
      exact List.mem_append_right _ (List.mem_replicate.2 ⟨by omega, rfl⟩)
    obtain ⟨j, -, hj'⟩ := List.mem_map.1 h4
    cases hj'
  by_cases hs : ∀ i < 10 * c.n, c.fdyn i ≠ 0
  · refine ⟨iff_of_true (hyes hs).1 hs, iff_of_true (hyes hs).2 hs, iff_of_true ?_ hs⟩
    obtain ⟨r', h1, -⟩ := (hyes hs).2 (nums (10 * c.n) c.dyn) (by simp [nums])
    exact ⟨_, _, r', by simp [nums], h1⟩
  · have hv : (nums (10 * c.n) c.dyn).length = 10 * c.n := by simp [nums]
    refine ⟨iff_of_false (hno hs).1 hs, iff_of_false (fun hall => ?_) hs, iff_of_false ?_ hs⟩
    · obtain ⟨r1, h1, -⟩ := hall _ hv
      obtain ⟨r2, h2⟩ := (hno hs).2 _ hv
      rw [h1] at h2
      cases h2
    · rintro ⟨v, x, r1, hv, h1⟩
      obtain ⟨r2, h2⟩ := (hno hs).2 v hv
      rw [h1] at h2
      cases h2

namespace Ex

/-- `C37_partial` and `C37_fails` both have instances. -/
example : Describes (fileOf { mixed with fdyn := fun _ => 1 }) { mixed with fdyn := fun _ => 1 } ∧ JointsOk { mixed with fdyn := fun _ => 1 } ∧
    ∀ i < 10 * Conf.n { mixed with fdyn := fun _ => 1 }, (fun _ => 1 : ℕ → ℤ) i ≠ 0 := by
  refine ⟨describes_fileOf (fun h => nomatch h), joints_mixed, by simp⟩
example : 1 < 10 * mixed.n ∧ mixed.fdyn 1 = 0 := by decide

end Ex

end

end Thunder
