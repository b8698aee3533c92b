import Verif.Lemmas.Fleet
import Verif.Lemmas.Angles
import Verif.Lemmas.OldLayout
import Verif.Props.Balance

/-!
# The robot files of the repository: C65

All robot files in the current layout are accepted, and everything proved about robots built from files holds for them; one of them has its elastic
joint at the end of the chain, where `k` is not the torque of its spring (cf. C21); the two files in the old layout cannot be used.
-/

open scoped Classical
open Matrix

namespace Thunder

noncomputable section

open Spec Robot SX

/-! ## The files -/

/-- C65: the files are well formed with the contents of the tables, and describe robots with physical links. -/
theorem C65_sound : ∀ p ∈ fleet, Sound p.2.1 p.2.2 := by
  unfold fleet
  simp only [List.forall_mem_cons]
  exact ⟨sound_RRR, sound_seaRRR, sound_ego, sound_franka, sound_wrist, sound_lewis, sound_richard, sound_R3, sound_R5, sound_R7, sound_R9, sound_R9k,
    sound_R9n, sound_oldRRR, sound_oldSea, sound_oldFranka, fun _ h => absurd h List.not_mem_nil⟩

theorem fleet_names : ∀ p ∈ fleet, RobotName p.1 := by
  unfold fleet
  simp only [List.forall_mem_cons]
  refine ⟨?_, ?_, ?_, ?_, ?_, ?_, ?_, ?_, ?_, ?_, ?_, ?_, ?_, ?_, ?_, ?_, fun _ h => absurd h List.not_mem_nil⟩ <;>
    exact robotName_of_check (f := "M") (by decide +kernel)

/-- C65: at the right angles of the files the cosines and sines lie on the unit circle, except for the three robots mounted at other angles. -/
theorem C65_angles [Fl] (h : RightAngles) : ∀ p ∈ fleet, p.1 ∉ ["egoRightArm", "lewis", "richard"] → UnitNumeric p.2.2 := by
  unfold fleet
  simp only [List.forall_mem_cons]
  refine ⟨fun _ => unit_RRR h, fun _ => unit_seaRRR h, fun h => absurd h (by decide), fun _ => unit_franka h, fun _ => unit_wrist h,
    fun h => absurd h (by decide), fun h => absurd h (by decide), fun _ => unit_R3 h, fun _ => unit_R5 h, fun _ => unit_R7 h, fun _ => unit_R9 h,
    fun _ => unit_R9k h, fun _ => unit_R9n h, fun _ => unit_oldRRR h, fun _ => unit_oldSea h, fun _ => unit_oldFranka h,
    fun _ h => absurd h List.not_mem_nil⟩

/-! ## The robots -/

section

variable [Fl]

/-- C65: `robot_from_file` builds a robot from each of them, named like the file, and the robot and an object of its generated class can be brought to
any values of the variables of motion. -/
theorem C65_built_partial : ∀ p ∈ fleet, ∃ g, robotFromFile p.1 (some p.2.1) true = .ok g ∧ ∀ s : State p.2.2,
    (∃ r, Running p.2.1 p.2.2 s r) ∧ ∃ calls o, Wrap.runAll (Wrap.cfgOf g) (.loadConf (some p.2.1) true :: calls) (Wrap.init (Wrap.cfgOf g)) = some o ∧
      Generated p.2.1 p.2.2 s g o := by
  intro p hp
  have h := C65_sound p hp
  obtain ⟨g, e, -⟩ := C56_start h.describes h.joints (fleet_names p hp)
  exact ⟨g, e, fun s => ⟨C56_reachable h.describes h.joints (retuned_refl _) s, C61_reachable h.describes h.joints (retuned_refl _) s e⟩⟩

/-- C65: the mass matrix that each of them returns is symmetric and positive definite, and the returned equations of motion have exactly one solution. -/
theorem C65_forward : ∀ p ∈ fleet, UnitNumeric p.2.2 → ∀ (s : State p.2.2) (R : String → Mat → Prop), Source p.2.1 p.2.2 s R →
    ∃ (M C : Matrix (Fin p.2.2.n) (Fin p.2.2.n) ℝ) (G : Fin p.2.2.n → ℝ), Returns R "M" M ∧ Returns R "C" C ∧ ReturnsVec R "G" G ∧
      Mᵀ = M ∧ (∀ v, v ≠ 0 → 0 < v ⬝ᵥ M *ᵥ v) ∧ ∀ τ, ∃! a, M *ᵥ a + C *ᵥ s.dq + G = τ := by
  intro p hp hU s R hR
  have h := C65_sound p hp
  obtain ⟨M, C, G, h1, h2, h3, h4⟩ := C63_forward hR hU h.physical h.own
  obtain ⟨M', h5, h6, h7, -⟩ := C63_posdef hR hU h.physical h.own
  obtain rfl := C63_determined hR h1 h5
  exact ⟨M, C, G, h1, h2, h3, h6, h7, h4⟩

/-- C65: a rigid robot among them that moves freely according to the returned equations never gains energy. -/
theorem C65_loses : ∀ p ∈ fleet, UnitNumeric p.2.2 → ∀ {st : ℝ → State p.2.2} {R : ℝ → String → Mat → Prop}, (∀ t, Source p.2.1 p.2.2 (st t) (R t)) →
    (∀ t i, HasDerivAt (fun z => (st z).q i) ((st t).dq i) t) → (∀ t i, HasDerivAt (fun z => (st z).dq i) ((st t).ddq i) t) →
    (∀ t (M C : Matrix (Fin p.2.2.n) (Fin p.2.2.n) ℝ) (G f : Fin p.2.2.n → ℝ), Returns (R t) "M" M → Returns (R t) "C" C → ReturnsVec (R t) "G" G →
      ReturnsOrZero (R t) "dl" p.2.2.dlO f → M *ᵥ (st t).ddq + C *ᵥ (st t).dq + G + f = 0) →
    Antitone fun t => linkEnergyOf p.2.2 (st t).q (st t).dq :=
  fun p hp hU _ _ hR hq hdq hf => C64_rigid_loses hR hU hq hdq hf fun k _ => (C65_sound p hp).friction k

/-! ## The elastic joints -/

omit [Fl] in
/-- C65: in all files but one the elastic joints come first, so that `k` and `d` act between each motor and its own link (cf. C21). -/
theorem C65_springs_partial : ∀ p ∈ fleet, p.1 ≠ "frankaWrist" → p.2.2.elastic = true → elasticJoints p.2.2.types = List.range p.2.2.ne := by
  unfold fleet
  simp only [List.forall_mem_cons]
  refine ⟨?_, ?_, ?_, ?_, ?_, ?_, ?_, ?_, ?_, ?_, ?_, ?_, ?_, ?_, ?_, ?_, fun _ h => absurd h List.not_mem_nil⟩ <;> intro h1 h2 <;>
    first | exact absurd h2 (by decide) | exact absurd rfl h1 | decide +kernel

/-- The first and the eighth joint and the motor of the wrist. -/
def joint1 : Fin Ship.wristC.n := ⟨0, by decide⟩
def joint8 : Fin Ship.wristC.n := ⟨7, by decide⟩
def motor : Fin Ship.wristC.ne := ⟨0, by decide⟩

/-- C65: the elastic joint of frankaWrist is the eighth one, but `k` is computed from the first. -/
theorem C65_wrist {s : State Ship.wristC} {R : String → Mat → Prop} (h : Source Thunder.Ship.wrist Ship.wristC s R) :
    elasticJoints Ship.wristC.types = [7] ∧ ReturnsVec R "k" fun _ : Fin Ship.wristC.ne => 2.5 * (s.x motor - s.q joint1) := by
  refine ⟨by decide +kernel, ?_⟩
  have := (C60_elastic h rfl).1 (by decide)
  have e : springOf Ship.wristC Ship.wristC.K s.q s.x = fun _ : Fin Ship.wristC.ne => 2.5 * (s.x motor - s.q joint1) := by
    funext a
    have ha : a = motor := Fin.ext (Nat.lt_one_iff.1 (lt_of_lt_of_eq a.2 (by decide : Ship.wristC.ne = 1)))
    subst ha
    show ∑ k ∈ Finset.range 1, Ship.wristC.K (0 * 1 + k) * (s.x motor - s.q joint1) ^ (2 * k + 1) = _
    rw [Finset.sum_range_one]
    show (2.5 : ℝ) * _ ^ 1 = _
    rw [pow_one]
  rwa [e] at this

/-- C65: it is therefore not the torque of the spring of that joint. -/
theorem C65_wrist_fails : ∃ (s : State Ship.wristC) (r : Robot), Running Thunder.Ship.wrist Ship.wristC s r ∧
    ∀ v : Fin Ship.wristC.ne → ℝ, ReturnsVec (answers r) "k" v → v motor ≠ Ship.wristC.K 0 * (s.x motor - s.q joint8) := by
  have h := sound_wrist
  obtain ⟨r, hr⟩ := C56_reachable h.describes h.joints (retuned_refl _) (⟨fun i => if i = joint8 then 1 else 0, 0, 0, 0, 0, 0, 0, 0, 0, 0⟩ : State Ship.wristC)
  refine ⟨_, r, hr, fun v hv hk => ?_⟩
  have e := congrFun (congrFun (C63_determined (.robot hr) hv (C65_wrist (.robot hr)).2) motor) 0
  simp only [of_apply] at e
  rw [hk] at e
  have hK : Ship.wristC.K 0 = 2.5 := rfl
  have hj : joint1 ≠ joint8 := by decide
  dsimp only at e
  rw [hK, if_pos rfl, if_neg hj] at e
  norm_num at e

/-! ## The files in the old layout -/

/-- C65: with the file of R15 or R30, `robot_from_file` throws an exception; without computing the functions it silently returns a robot whose
inertial parameters are all zero and that has no kinematic parameters. -/
theorem C65_old {y : Yaml} {n : ℕ} {ts : List String} (h : NoKin y n ts) (name : String) : robotFromFile name (some y) true = .exc ∧
    ∃ r, robotFromFile name (some y) false = .ok r ∧ r.n = n ∧ r.arg "par_DYN" = List.replicate (10 * n) (some 0) ∧
      r.args.find "par_DHtable" = none ∧ r.args.find "par_gravity" = none :=
  ⟨fromFile_old h name, fromFile_old_plain h name⟩

end

namespace Ex

open Spec Robot

theorem noKin_R15 : NoKin Thunder.Ship.R15 15 (List.replicate 15 "R") where
  joints := ⟨_, child_of_lookup rfl, rfl⟩
  types := ⟨_, child_of_lookup rfl, rfl⟩
  length := rfl
  dl := ⟨_, rfl, by decide⟩
  elastic := ⟨_, rfl, by decide⟩
  kin := ⟨_, rfl, by decide⟩
  dyn := ⟨_, rfl, by decide⟩

theorem noKin_R30 : NoKin Thunder.Ship.R30 30 (List.replicate 30 "R") where
  joints := ⟨_, child_of_lookup rfl, rfl⟩
  types := ⟨_, child_of_lookup rfl, rfl⟩
  length := rfl
  dl := ⟨_, rfl, by decide⟩
  elastic := ⟨_, rfl, by decide⟩
  kin := ⟨_, rfl, by decide⟩
  dyn := ⟨_, rfl, by decide⟩

/-- Library functions for which the right angles are exact. -/
abbrev flRight : Fl where
  cosF x := if |x| = rightAngle then 0 else Real.cos x
  sinF x := if x = rightAngle then 1 else if x = -rightAngle then -1 else Real.sin x

example : @RightAngles flRight := by
  have h : (0 : ℝ) < rightAngle := by unfold rightAngle; norm_num
  have h' : -rightAngle ≠ rightAngle := by linarith
  refine @RightAngles.mk flRight ?_ ?_ ?_ ?_ ?_ ?_ <;> simp [Fl.cosF, Fl.sinF, abs_of_pos h, h.ne, h.ne', h'] <;> norm_num

example : ("franka", Thunder.Ship.franka, Ship.frankaC) ∈ fleet := by simp [fleet]
example [Fl] : robotFromFile "R15" (some Thunder.Ship.R15) true = .exc := (C65_old noKin_R15 "R15").1
example [Fl] : robotFromFile "R30" (some Thunder.Ship.R30) true = .exc := (C65_old noKin_R30 "R30").1

end Ex

end

end Thunder
