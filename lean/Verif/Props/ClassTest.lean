import Verif.Lemmas.ClassTest
import Verif.Props.Shipped

/-!
# The program `thunder_robot_test`: C70
-/

open scoped Classical
open Matrix

namespace Thunder

noncomputable section

open Spec Robot

variable [Fl] {y₀ y : Yaml} {c₀ c : Conf}

/-- C70: the class was generated from the file `y₀`; the file `y` that the program reads is of the same form.  The program prints the parameters of the file
it reads, and everything else for the mechanism `over c₀ c`. -/
theorem C70_over (h₀ : Describes y₀ c₀) (hj : JointsOk c₀) (h : Describes y c) (hf : SameForm c₀ c) {name : String} {g : Robot}
    (e : robotFromFile name (some y₀) true = .ok g) : ∃ out, ClassTest.main g (some y) = .printed out ∧ out.map Prod.fst = classHeadings ∧
      shows out "par_DYN" (printRow (nums (10 * c.n) c.dyn)) ∧ shows out "par_REG" (printRow (nums (10 * c.n) (reg c.dyn))) ∧
      shows out "par_Dl" (printRow (nums (c.dlO * c.n) c.dl)) ∧ shows out "world2L0" (printCol (symbolics 6 c.fw2l c.w2l)) ∧
      shows out "par_Ln2EE" (printCol (symbolics 6 c.fee c.ee)) ∧ (UnitNumeric c₀ → ClassPrints (over c₀ c) c.dyn out) := by
  obtain ⟨g₀, e₀, hd₀⟩ := fromFile_ok h₀ hj.1 (typed_of hj) (robotName_of_ok h₀ e)
  obtain rfl : g₀ = g := by rw [e] at e₀; cases e₀; rfl
  obtain ⟨o, e1, hl, hr, hm⟩ := class_loaded h
  have hn : (over c₀ c).n = c.n := hf.n.symm
  have hm' : Moves (over c₀ c) (testState (over c₀ c)) o := by
    have st : ∀ {a b : ℕ} (x : ℝ), a = b → (stored fun _ : Fin a => x) = stored fun _ : Fin b => x := by rintro a _ x rfl; rfl
    have he : (over c₀ c).elastic = true → c.elastic = true := fun he => hf.elastic.trans he
    exact ⟨hm.q.trans (st 1 hf.n), hm.dq.trans (st 0 hf.n), hm.ddq.trans (st 0 hf.n), hm.d3q.trans (st 0 hf.n), hm.dqr.trans (st 0 hf.n), hm.ddqr.trans (st 0 hf.n),
      hm.w, fun h => (hm.x (he h)).trans (st 0 hf.ne), fun h => (hm.dx (he h)).trans (st 0 hf.ne), fun h => (hm.ddx (he h)).trans (st 0 hf.ne)⟩
  have hc : Wrap.cfgOf g₀ = Wrap.cfg c := by rw [Wrap.cfgOf_fixed hd₀.toFixed, hf.cfg]
  obtain ⟨out, h1, h2, h3, h4, h5, h6, h7, h8⟩ := class_run (c := over c₀ c) ⟨⟨c₀, h₀, hj, retuned_over c₀ c⟩, ⟨name, e⟩, hl.over hf hm'⟩ (by rw [hc]; exact e1)
    (p := c.dyn) (by rw [hn]; exact hr) (by rw [hn]; exact hl.dyn)
  rw [hn] at h3 h4
  rw [hl.dl] at h5
  rw [hl.w2l] at h6
  rw [hl.ee] at h7
  exact ⟨out, h1, h2, h3, h4, h5, h6, h7, fun hU => h8 (unit_retuned (retuned_over c₀ c) hU)⟩

omit [Fl] in
/-- No heading is printed twice. -/
theorem C70_headings : classHeadings.Nodup := by decide

/-- C70 as far as it holds: the file read has the numeric parameters with which the class was generated, and its symbolic parameters of links and actuators
come first.  Then everything printed is for this file, and the last check gives zero.  Not claimed, because false (`C70_fails`, `C70_silent`): the same for
other files of the same form. -/
theorem C70_partial (h₀ : Describes y₀ c₀) (hj : JointsOk c₀) (h : Describes y c) (hc : Retuned c₀ c) (ha : Aligned c) (hU : UnitNumeric c) {name : String} {g : Robot}
    (e : robotFromFile name (some y₀) true = .ok g) : ∃ out, ClassTest.main g (some y) = .printed out ∧ ClassPrints c c.dyn out ∧
      shows out "par_Dl" (printRow (nums (c.dlO * c.n) c.dl)) ∧ shows out "world2L0" (printCol (symbolics 6 c.fw2l c.w2l)) ∧
      shows out "par_Ln2EE" (printCol (symbolics 6 c.fee c.ee)) ∧ ReturnsVec (shows out) "diff tau_cmd" (0 : Fin c.n → ℝ) := by
  obtain ⟨g₀, e₀, hd₀⟩ := fromFile_ok h₀ hj.1 (typed_of hj) (robotName_of_ok h₀ e)
  obtain rfl : g₀ = g := by rw [e] at e₀; cases e₀; rfl
  obtain ⟨o, e1, hl, hr, hm⟩ := class_loaded h
  have hcf : Wrap.cfgOf g₀ = Wrap.cfg c := by rw [Wrap.cfgOf_fixed hd₀.toFixed, (Spec.SameForm.retuned hc).cfg]
  obtain ⟨out, h1, -, -, -, h5, h6, h7, h8⟩ := class_run ⟨⟨c₀, h₀, hj, hc⟩, ⟨name, e⟩, hl.stores ha hm⟩ (by rw [hcf]; exact e1) hr hl.dyn
  rw [hl.dl] at h5
  rw [hl.w2l] at h6
  rw [hl.ee] at h7
  refine ⟨out, h1, h8 hU, h5, h6, h7, ?_⟩
  have := (h8 hU).diff
  have e0 : (fun i => gravityOf c (fun _ => 1) i - gravityOf (withDyn c c.dyn) (fun _ => 1) i) = (0 : Fin c.n → ℝ) := funext fun i => sub_self _
  rwa [e0] at this

/-- C70: the last check gives zero exactly when the gravity torque is the same with the parameters that the getters use and with the parameters printed. -/
theorem C70_iff (h₀ : Describes y₀ c₀) (hj : JointsOk c₀) (h : Describes y c) (hf : SameForm c₀ c) (hU : UnitNumeric c₀) {name : String} {g : Robot}
    (e : robotFromFile name (some y₀) true = .ok g) : ∃ out, ClassTest.main g (some y) = .printed out ∧
      (ReturnsVec (shows out) "diff tau_cmd" (0 : Fin c₀.n → ℝ) ↔
        gravityOf (over c₀ c) (fun _ => 1) = gravityOf (withDyn (over c₀ c) c.dyn) fun _ => 1) := by
  obtain ⟨out, h1, -, -, -, -, -, -, h8⟩ := C70_over h₀ hj h hf e
  refine ⟨out, h1, ?_⟩
  have hd := (h8 hU).diff
  have uni : ∀ {l : String} {m m' : Mat}, shows out l m → shows out l m' → m = m' := by
    intro l m m' a b
    have nd : (out.map Prod.fst).Nodup := (h8 hU).heads ▸ C70_headings
    exact congrArg Prod.snd (List.inj_on_of_nodup_map nd a b rfl)
  constructor
  · intro hz
    obtain ⟨m, hm, -, -, -, hv⟩ := hz
    obtain ⟨m', hm', -, -, -, hv'⟩ := hd
    obtain rfl := uni hm hm'
    funext i
    have := (hv i 0).symm.trans (hv' i 0)
    simp only [of_apply, Pi.zero_apply, Option.some.injEq] at this
    exact (sub_eq_zero.1 this.symm)
  · intro he
    have e0 : (fun i => gravityOf (over c₀ c) (fun _ => 1) i - gravityOf (withDyn (over c₀ c) c.dyn) (fun _ => 1) i) = (0 : Fin c₀.n → ℝ) :=
      funext fun i => by rw [he]; exact sub_self _
    rwa [e0] at hd

/-- C70 when the file cannot be read: the program goes on and prints for the mechanism with all symbolic parameters zero. -/
theorem C70_nofile (h₀ : Describes y₀ c₀) (hj : JointsOk c₀) {name : String} {g : Robot} (e : robotFromFile name (some y₀) true = .ok g) :
    ∃ out, ClassTest.main g none = .printed out ∧ out.map Prod.fst = classHeadings ∧ shows out "par_DYN" (printRow (List.replicate (10 * c₀.n) (some 0))) ∧
      (UnitNumeric c₀ → ClassPrints (cleared c₀) 0 out) := by
  obtain ⟨g₀, e₀, hd₀⟩ := fromFile_ok h₀ hj.1 (typed_of hj) (robotName_of_ok h₀ e)
  obtain rfl : g₀ = g := by rw [e] at e₀; cases e₀; rfl
  obtain ⟨o, e1, hv, hs⟩ := class_new c₀
  have hz : ∀ k, List.replicate k (some (0 : ℝ)) = nums k 0 := fun k => by simp [nums]
  have hD : o.vec .DYN = nums (10 * c₀.n) 0 := (hv .DYN (by decide)).trans (hz _)
  have hR : o.vec .REG = nums (10 * c₀.n) (reg 0) := by
    refine (hv .REG (by decide)).trans ?_
    rw [(Wrap.inv_init (Wrap.cfg c₀)).2, ← regOfDyn_nums, ← hz]
    rfl
  obtain ⟨out, h1, h2, h3, -, -, -, -, h8⟩ := class_run ⟨⟨c₀, h₀, hj, retuned_cleared c₀⟩, ⟨name, e⟩, hs⟩ (by rw [Wrap.cfgOf_fixed hd₀.toFixed]; exact e1) hR hD
  exact ⟨out, h1, h2, by rw [hz]; exact h3, fun hU => h8 (unit_retuned (retuned_cleared c₀) hU)⟩

/-- C70 for the class and the file named in the program: when the class is generated from `RRR.yaml` and this file is read, the last check gives zero. -/
theorem C70_RRR (hR : RightAngles) {name : String} {g : Robot} (e : robotFromFile name (some Ship.RRR) true = .ok g) :
    ∃ out, ClassTest.main g (some Ship.RRR) = .printed out ∧ ClassPrints Spec.Ship.RRRC Spec.Ship.RRRC.dyn out ∧
      ReturnsVec (shows out) "diff tau_cmd" (0 : Fin 3 → ℝ) := by
  have hs := sound_RRR
  obtain ⟨out, h1, h2, -, -, -, h3⟩ := C70_partial hs.describes hs.joints hs.describes (retuned_refl _) hs.aligned (unit_RRR hR) e
  exact ⟨out, h1, h2, h3⟩

/-- The gravity term of one revolute joint whose axis is horizontal. -/
theorem gravity_crank {c : Conf} (ht : c.types = ["R"]) (hw : ∀ i, c.fw2l i ≠ 0) (hd : ∀ i, c.fdh i ≠ 0) (hw0 : ∀ i, c.w2l i = 0) (hd0 : ∀ i, c.dh i = 0)
    (hg : c.g 0 = 0) (q : Fin c.n → ℝ) (j : Fin c.n) : gravityOf c q j = -(c.dyn 0 * (c.g 1 * (Real.cos (q j) * c.dyn 1 - Real.sin (q j) * c.dyn 2))) := by
  have n1 : c.n = 1 := by simp [Conf.n, ht]
  have hj : (j : ℕ) = 0 := by omega
  have hk : kindOf c 0 = .revolute := by simp [kindOf, ht]
  have fr : ∀ x, linkFrame c (Function.update q j x) 1 = Spec.rotZ (cs x) := by
    intro x
    have hx : Function.update q j x ⟨0, by omega⟩ = x := by
      rw [show (⟨0, by omega⟩ : Fin c.n) = j from Fin.ext hj.symm, Function.update_self]
    rw [linkFrame, linkFrame, dif_pos (by omega), hx, linkOf, hk, mountOf]
    have z0 : cs 0 = (1, 0) := by simp [cs]
    have one : ∀ M : Matrix (Fin 4) (Fin 4) ℝ, (∀ a b, M a b = if a = b then 1 else 0) → M = 1 := fun M h => by
      ext a b
      rw [h, one_apply]
    have rx : Spec.rotX (1, 0) = 1 := one _ fun a b => by fin_cases a <;> fin_cases b <;> simp [Spec.rotX]
    have ry : Spec.rotY (1, 0) = 1 := one _ fun a b => by fin_cases a <;> fin_cases b <;> simp [Spec.rotY]
    have rz : Spec.rotZ (1, 0) = 1 := one _ fun a b => by fin_cases a <;> fin_cases b <;> simp [Spec.rotZ]
    have t0 : Spec.trans 0 0 0 = 1 := one _ fun a b => by fin_cases a <;> fin_cases b <;> simp [Spec.trans]
    simp only [angleOf, if_neg (hw _), if_neg (hd _), hw0, hd0, frame, dh, z0, rx, ry, rz, t0, mul_one, one_mul, zero_add]
  have hp : (fun x => potentialOf c (Function.update q j x)) =
      fun x => -(c.dyn 0 * (c.g 1 * (Real.sin x * c.dyn 1 + Real.cos x * c.dyn 2) + c.g 2 * c.dyn 3)) := by
    funext x
    have : ∀ k, k = 1 → (∑ i ∈ Finset.range k, mass c.dyn i * ((fun k : Fin 3 => c.g k) ⬝ᵥ point (linkFrame c (Function.update q j x) (i + 1)) (com c.dyn i))) =
        c.dyn 0 * (c.g 1 * (Real.sin x * c.dyn 1 + Real.cos x * c.dyn 2) + c.g 2 * c.dyn 3) := by
      rintro k rfl
      rw [Finset.sum_range_one, Nat.zero_add, fr]
      simp [mass, com, point, pos, rot, Spec.rotZ, cs, dotProduct, Fin.sum_univ_three, mulVec, hg]
    exact congrArg Neg.neg (this c.n n1)
  show deriv (fun x => potentialOf c (Function.update q j x)) (q j) = _
  rw [hp]
  have := ((((((Real.hasDerivAt_sin (q j)).mul_const (c.dyn 1)).add ((Real.hasDerivAt_cos (q j)).mul_const (c.dyn 2))).const_mul (c.g 1)).add_const (c.g 2 * c.dyn 3)).const_mul
    (c.dyn 0)).neg.deriv
  rw [show -(c.dyn 0 * (c.g 1 * (Real.cos (q j) * c.dyn 1 - Real.sin (q j) * c.dyn 2))) =
    -(c.dyn 0 * (c.g 1 * (Real.cos (q j) * c.dyn 1 + -Real.sin (q j) * c.dyn 2))) by ring]
  exact this

namespace Ex

/-- One revolute joint with a horizontal axis; one coordinate of the centre of mass and the frames are symbolic. -/
def crank : Conf := { comOnly with
  fee := fun _ => 1
  g := fun i => if i = 1 then -10 else 0 }

omit [Fl] in
theorem describes_crank : Describes (fileOf crank) crank := describes_fileOf fun _ => ⟨rfl, rfl, rfl⟩
omit [Fl] in
theorem joints_crank : JointsOk crank := ⟨Nat.one_pos, by simp [crank, comOnly, jointTypes]⟩

end Ex

/-- C70 is false: the class is generated from a file and the program reads the same file; the mass is numeric and one coordinate of the centre of mass is
symbolic.  The last check does not give zero. -/
theorem C70_fails {name : String} (hnm : RobotName name) : ∃ (y : Yaml) (c : Conf), Describes y c ∧ JointsOk c ∧
    ∃ g, robotFromFile name (some y) true = .ok g ∧ ∃ out, ClassTest.main g (some y) = .printed out ∧
      ReturnsVec (shows out) "diff tau_cmd" (fun _ : Fin 1 => -10 * Real.cos 1) ∧ Real.cos 1 ≠ 0 := by
  obtain ⟨g, e, -⟩ := fromFile_ok Ex.describes_crank Ex.joints_crank.1 (typed_of Ex.joints_crank) hnm
  obtain ⟨out, h1, -, -, -, -, -, -, h8⟩ := C70_over Ex.describes_crank Ex.joints_crank Ex.describes_crank (.retuned (retuned_refl _)) e
  refine ⟨_, _, Ex.describes_crank, Ex.joints_crank, g, e, out, h1, ?_, Real.cos_one_pos.ne'⟩
  have hd := (h8 (Ex.unit_of_symbolic (fun _ => rfl) (fun _ => rfl) fun _ => rfl)).diff
  have a1 : gravityOf (over Ex.crank Ex.crank) (fun _ => 1) = fun _ : Fin 1 => 10 * (Real.cos 1 - Real.sin 1 * 3) := by
    funext i
    rw [gravity_crank (c := over Ex.crank Ex.crank) rfl (fun _ => one_ne_zero) (fun _ => one_ne_zero) (fun i => ?_) (fun i => ?_) ?_]
    all_goals norm_num [over, choose, fromFront, before, Ex.crank, Ex.comOnly, List.range, List.range.loop]
  have a2 : gravityOf (withDyn (over Ex.crank Ex.crank) Ex.crank.dyn) (fun _ => 1) = fun _ : Fin 1 => 10 * (Real.cos 1 * 2 - Real.sin 1 * 3) := by
    funext i
    rw [gravity_crank (c := withDyn (over Ex.crank Ex.crank) Ex.crank.dyn) rfl (fun _ => one_ne_zero) (fun _ => one_ne_zero) (fun i => ?_) (fun i => ?_) ?_]
    all_goals norm_num [over, withDyn, choose, Ex.crank, Ex.comOnly]
  have : (fun i => gravityOf (over Ex.crank Ex.crank) (fun _ => 1) i - gravityOf (withDyn (over Ex.crank Ex.crank) Ex.crank.dyn) (fun _ => 1) i) =
      fun _ : Fin 1 => -10 * Real.cos 1 := by
    funext i
    rw [a1, a2]
    ring
  rwa [this] at hd

/-- C70 is false in another way: the class is generated for a lift on the earth and the program reads the file of the same lift on the moon.  The last check
gives zero, although the torques printed are not those of the file that was read. -/
theorem C70_silent {name : String} (hnm : RobotName name) : ∃ (y₀ y : Yaml) (c₀ c : Conf), Describes y₀ c₀ ∧ JointsOk c₀ ∧ Describes y c ∧ SameForm c₀ c ∧ Aligned c ∧
    ∃ g, robotFromFile name (some y₀) true = .ok g ∧ ∃ out, ClassTest.main g (some y) = .printed out ∧
      ReturnsVec (shows out) "tau_cmd_dyn" (fun _ : Fin 1 => (9.81 : ℝ)) ∧ ReturnsVec (shows out) "diff tau_cmd" (0 : Fin 1 → ℝ) ∧
      ∀ q j, gravityOf c q j = (1.62 : ℝ) := by
  obtain ⟨g, e, -⟩ := fromFile_ok (Ex.describes_lift (-9.81)) (Ex.joints_lift _).1 (typed_of (Ex.joints_lift _)) hnm
  obtain ⟨out, h1, -, -, -, -, -, -, h8⟩ := C70_over (Ex.describes_lift (-9.81)) (Ex.joints_lift _) (Ex.describes_lift (-1.62)) (Ex.form_lift _ _) e
  have hP := h8 (Ex.unit_of_symbolic (fun _ => rfl) (fun _ => rfl) fun _ => rfl)
  have a1 : gravityOf (over (Ex.lift (-9.81)) (Ex.lift (-1.62))) (fun _ => 1) = fun _ : Fin 1 => (9.81 : ℝ) := by
    funext i
    rw [gravity_lift (c := over (Ex.lift (-9.81)) (Ex.lift (-1.62))) rfl (fun _ => one_ne_zero) (fun _ => one_ne_zero) (fun i => ?_) (fun i => ?_)]
    all_goals norm_num [over, choose, fromFront, before, Ex.lift, Ex.comOnly]
  have a2 : gravityOf (withDyn (over (Ex.lift (-9.81)) (Ex.lift (-1.62))) (Ex.lift (-1.62)).dyn) (fun _ => 1) = fun _ : Fin 1 => (9.81 : ℝ) := by
    funext i
    rw [gravity_lift (c := withDyn (over (Ex.lift (-9.81)) (Ex.lift (-1.62))) (Ex.lift (-1.62)).dyn) rfl (fun _ => one_ne_zero) (fun _ => one_ne_zero) (fun i => ?_)
      (fun i => ?_)]
    all_goals norm_num [over, withDyn, choose, fromFront, before, Ex.lift, Ex.comOnly]
  refine ⟨_, _, _, _, Ex.describes_lift (-9.81), Ex.joints_lift _, Ex.describes_lift (-1.62), Ex.form_lift _ _, ?_, g, e, out, h1, a1 ▸ hP.tauDyn, ?_, fun q j => ?_⟩
  · exact ⟨⟨(List.range 9).map fun i => ((i + 1 : ℕ) : ℝ) + 1, by
      simp [Ex.lift, Ex.comOnly, Conf.n, List.range, List.range.loop]; norm_num⟩, ⟨[], rfl⟩, (fun h => nomatch h), (fun h => nomatch h), (fun h => nomatch h),
      (fun h => nomatch h)⟩
  · have e0 : (fun i => gravityOf (over (Ex.lift (-9.81)) (Ex.lift (-1.62))) (fun _ => 1) i -
        gravityOf (withDyn (over (Ex.lift (-9.81)) (Ex.lift (-1.62))) (Ex.lift (-1.62)).dyn) (fun _ => 1) i) = (0 : Fin 1 → ℝ) :=
      funext fun i => by rw [a1, a2]; exact sub_self _
    exact e0 ▸ hP.diff
  · rw [gravity_lift (c := Ex.lift (-1.62)) rfl (fun _ => one_ne_zero) (fun _ => one_ne_zero) (fun _ => rfl) (fun _ => rfl)]
    norm_num [Ex.lift, Ex.comOnly]

/-! ## Instances of the hypotheses -/

namespace Ex

omit [Fl] in
/-- Files to which `C70_partial` applies: the program reads another mass. -/
example : Describes (fileOf (lift (-9.81))) (lift (-9.81)) ∧ JointsOk (lift (-9.81)) ∧ Describes (fileOf loaded) loaded ∧ loaded.dyn 0 ≠ (lift (-9.81)).dyn 0 :=
  ⟨describes_lift _, joints_lift _, describes_fileOf fun _ => ⟨rfl, rfl, rfl⟩, by norm_num [loaded, lift, comOnly]⟩

/-- The program prints with the shipped robot and without a file. -/
example {g : Robot} (e : robotFromFile "RRR" (some Ship.RRR) true = .ok g) : ∃ out, ClassTest.main g none = .printed out :=
  (C70_nofile sound_RRR.describes sound_RRR.joints e).imp fun _ h => h.1

end Ex

end

end Thunder
