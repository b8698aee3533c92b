import Verif.Lib.Damped
import Verif.Lemmas.Regulate
import Verif.Props.Adaptive
import Verif.Spec.Torque

/-!
# Control with the values that are returned: C79
-/

open scoped Classical
open Matrix Filter Topology

namespace Thunder

noncomputable section

open Spec Robot SX

section

variable [Fl] {y : Yaml} {c : Conf} {st : ℝ → State c} {R : ℝ → String → Mat → Prop} {a u d d' d'' : ℝ → Fin c.n → ℝ} {kp kd : Fin c.n → ℝ}

/-- C79: under computed torque the accelerations are the ones wanted. -/
theorem C79_linear (h : ∀ t, Source y c (st t) (R t)) (hU : UnitNumeric c) (hp : Physical c.dyn c.n) (ho : ∀ i < c.n, 0 < ownInertia c.dyn i (kindOf c i))
    (hd : Driven c st u) (hu : ComputedTorque c st R a u) {t : ℝ} (ht : 0 ≤ t) : (st t).ddq = a t := by
  obtain ⟨h1, h2, -, h3⟩ := C58_matrices (h t) hU
  have hf : ReturnsOrZero (R t) "dl" c.dlO (frictionOf c c.dl (st t).dq) := ⟨fun hd => (C60_link (h t) hd).1, fun hd => by
    funext i
    show friction _ c.dlO _ = 0
    rw [hd]; exact Finset.sum_range_zero _⟩
  have h4 := (hd.law t ht).trans (hu t ht _ _ _ _ h1 h2 h3 hf)
  have h5 : massOf c (st t).q *ᵥ (st t).ddq = massOf c (st t).q *ᵥ a t := by
    have := add_right_cancel (add_right_cancel (add_right_cancel h4))
    exact this
  have hu : IsUnit (massOf c (st t).q).det := isUnit_iff_ne_zero.2 (massOf_det (h t).pos (h t).typed hU (st t) hp ho)
  have h6 := congrArg ((massOf c (st t).q)⁻¹ *ᵥ ·) h5
  simpa only [mulVec_mulVec, nonsing_inv_mul _ hu, one_mulVec] using h6

/-- C79: with positive gains every joint follows a desired motion; the errors of position and velocity die out at a rate that depends only on the gains. -/
theorem C79_follows (h : ∀ t, Source y c (st t) (R t)) (hU : UnitNumeric c) (hp : Physical c.dyn c.n) (ho : ∀ i < c.n, 0 < ownInertia c.dyn i (kindOf c i))
    (hd : Driven c st u) (hu : ComputedTorque c st R a u) (hf : Follows c st kp kd d d' d'' a) (h0 : ∀ i, 0 < kp i ∧ 0 < kd i)
    (hd1 : ∀ t, 0 ≤ t → ∀ i, HasDerivAt (fun z => d z i) (d' t i) t) (hd2 : ∀ t, 0 ≤ t → ∀ i, HasDerivAt (fun z => d' z i) (d'' t i) t)
    {t : ℝ} (ht : 0 ≤ t) (i : Fin c.n) :
    ((st t).dq i - d' t i) ^ 2 + kp i * ((st t).q i - d t i) ^ 2 ≤
      5 * (((st 0).dq i - d' 0 i) ^ 2 + kp i * ((st 0).q i - d 0 i) ^ 2) * Real.exp (-(min (kd i / 3) (kp i / kd i) * t)) := by
  refine damped (e := fun t => (st t).q i - d t i) (v := fun t => (st t).dq i - d' t i) (h0 i).1 (h0 i).2
    (fun t ht => (hd.q t ht i).sub (hd1 t ht i)) (fun t ht => ((hd.dq t ht i).sub (hd2 t ht i)).congr_deriv ?_) ht
  rw [C79_linear h hU hp ho hd hu ht, hf t ht i]
  ring

/-- C79: hence positions and velocities tend to the desired ones. -/
theorem C79_tends (h : ∀ t, Source y c (st t) (R t)) (hU : UnitNumeric c) (hp : Physical c.dyn c.n) (ho : ∀ i < c.n, 0 < ownInertia c.dyn i (kindOf c i))
    (hd : Driven c st u) (hu : ComputedTorque c st R a u) (hf : Follows c st kp kd d d' d'' a) (h0 : ∀ i, 0 < kp i ∧ 0 < kd i)
    (hd1 : ∀ t, 0 ≤ t → ∀ i, HasDerivAt (fun z => d z i) (d' t i) t) (hd2 : ∀ t, 0 ≤ t → ∀ i, HasDerivAt (fun z => d' z i) (d'' t i) t)
    (i : Fin c.n) : Tendsto (fun t => (st t).q i - d t i) atTop (𝓝 0) ∧ Tendsto (fun t => (st t).dq i - d' t i) atTop (𝓝 0) := by
  set l := min (kd i / 3) (kp i / kd i) with hl
  set b := 5 * (((st 0).dq i - d' 0 i) ^ 2 + kp i * ((st 0).q i - d 0 i) ^ 2) with hb
  have l0 : 0 < l := lt_min (div_pos (h0 i).2 (by norm_num)) (div_pos (h0 i).1 (h0 i).2)
  have hlim : Tendsto (fun t => b * Real.exp (-(l * t))) atTop (𝓝 0) := by
    have : Tendsto (fun t => b * Real.exp (-(l * t))) atTop (𝓝 (b * 0)) :=
      Tendsto.const_mul b (Real.tendsto_exp_atBot.comp (tendsto_neg_atTop_atBot.comp (tendsto_id.const_mul_atTop l0)))
    rwa [mul_zero] at this
  have key : ∀ x : ℝ → ℝ, ∀ k : ℝ, 0 < k → (∀ t, 0 ≤ t → k * x t ^ 2 ≤ b * Real.exp (-(l * t))) → Tendsto x atTop (𝓝 0) := by
    intro x k hk hx
    have h1 : Tendsto (fun t => k * x t ^ 2) atTop (𝓝 0) := by
      refine tendsto_of_tendsto_of_tendsto_of_le_of_le' tendsto_const_nhds hlim (Eventually.of_forall fun t => mul_nonneg hk.le (sq_nonneg _)) ?_
      filter_upwards [eventually_ge_atTop (0 : ℝ)] with t ht using hx t ht
    have h2 : Tendsto (fun t => x t ^ 2) atTop (𝓝 0) := by
      have := h1.const_mul k⁻¹
      simpa only [mul_zero, inv_mul_cancel_left₀ hk.ne'] using this
    have h3 := h2.sqrt
    simp only [Real.sqrt_sq_eq_abs, Real.sqrt_zero] at h3
    exact (tendsto_zero_iff_abs_tendsto_zero _).2 h3
  have h1 := fun t (ht : 0 ≤ t) => C79_follows h hU hp ho hd hu hf h0 hd1 hd2 ht i
  refine ⟨key _ (kp i) (h0 i).1 fun t ht => ?_, key _ 1 one_pos fun t ht => ?_⟩
  · have := h1 t ht
    have h2 := sq_nonneg ((st t).dq i - d' t i)
    linarith
  · have := h1 t ht
    have h2 := mul_nonneg (h0 i).1.le (sq_nonneg ((st t).q i - d t i))
    linarith

/-! ## Compensation of gravity -/

variable {p : Fin c.n → ℝ}

/-- The mass matrix of a motion changes by the sum of the Coriolis matrix and its transpose. -/
theorem mass_rate (hn : 0 < c.n) (hty : Typed c) (hU : UnitNumeric c) {t : ℝ} (hq : ∀ i, HasDerivAt (fun z => (st z).q i) ((st t).dq i) t)
    (hdq : ∀ i, HasDerivAt (fun z => (st z).dq i) ((st t).ddq i) t) (i j : Fin c.n) :
    HasDerivAt (fun z => massOf c (st z).q i j) ((coriolisOf c (st t).q (st t).dq + (coriolisOf c (st t).q (st t).dq)ᵀ) i j) t := by
  have hM := fun i j => (MGC_dot hn hty hU (st t) (q := fun z => (st z).q) (dq := fun z => (st z).dq) (t := t) rfl rfl hq hdq i j).1
  have hsym : ∀ q, (massOf c q)ᵀ = massOf c q := fun q => by
    rw [← M_q hn hty hU (st t)]
    exact C10_symm (B := base c) _
  have hs : ∀ i j, SX.val (env c (st t)) (base c).Mdot c.n c.n i j = SX.val (env c (st t)) (base c).Mdot c.n c.n j i := fun i j => by
    refine (hM i j).unique ((hM j i).congr_of_eventuallyEq (Eventually.of_forall fun z => ?_))
    exact congrFun (congrFun (hsym (st z).q) j) i
  have hskew := C15_skew (B := base c) (base_wf hn hty) (env c (st t))
  have h2 : SX.val (env c (st t)) (base c).C c.n c.n = coriolisOf c (st t).q (st t).dq := val_C hn hty hU (st t)
  refine (hM i j).congr_deriv ?_
  have h3 : SX.val (env c (st t)) (base c).Mdot c.n c.n j i - 2 * SX.val (env c (st t)) (base c).C c.n c.n j i =
      -(SX.val (env c (st t)) (base c).Mdot c.n c.n i j - 2 * SX.val (env c (st t)) (base c).C c.n c.n i j) := congrFun (congrFun hskew i) j
  rw [h2, ← hs i j] at h3
  rw [Matrix.add_apply, transpose_apply]
  linarith

/-- The Coriolis matrix depends continuously on positions and velocities. -/
theorem continuous_coriolisOf (hn : 0 < c.n) (hty : Typed c) (hU : UnitNumeric c) (s : State c) (i j : Fin c.n) :
    Continuous fun x : (Fin c.n → ℝ) × (Fin c.n → ℝ) => coriolisOf c x.1 x.2 i j := by
  obtain ⟨S, hS⟩ := Fn.tame (f := .C) hn hty
  have hset : Continuous fun x : (Fin c.n → ℝ) × (Fin c.n → ℝ) => setV "q" (setV "dq" (env c s) x.2) x.1 := by
    refine continuous_pi fun v => ?_
    unfold setV
    split_ifs
    · exact (continuous_apply _).comp continuous_fst
    · exact (continuous_apply _).comp continuous_snd
    · exact continuous_const
  have h : Continuous fun x : (Fin c.n → ℝ) × (Fin c.n → ℝ) => Expr.eval (setV "q" (setV "dq" (env c s) x.2) x.1) ((base c).C.e i j) :=
    (hS i j).continuous.comp hset
  have e : (fun x : (Fin c.n → ℝ) × (Fin c.n → ℝ) => coriolisOf c x.1 x.2 i j) =
      fun x => Expr.eval (setV "q" (setV "dq" (env c s) x.2) x.1) ((base c).C.e i j) := by
    funext x
    rw [← C_q hn hty hU s x.1 x.2]
    rfl
  rw [e]
  exact h

/-- The law of motion without gravity. -/
theorem springs_law (h : ∀ t, Source y c (st t) (R t)) (hU : UnitNumeric c) (hd : Driven c st u) (hu : GravityCompensated c st R kp kd p u) {t : ℝ}
    (ht : 0 ≤ t) : massOf c (st t).q *ᵥ (st t).ddq + coriolisOf c (st t).q (st t).dq *ᵥ (st t).dq + frictionOf c c.dl (st t).dq =
      fun i => -(kp i * ((st t).q i - p i)) - kd i * (st t).dq i := by
  obtain ⟨-, -, -, h3⟩ := C58_matrices (h t) hU
  funext i
  have h4 := congrFun (hd.law t ht) i
  rw [hu t ht _ h3 i] at h4
  simp only [Pi.add_apply] at h4 ⊢
  linarith

/-- C79: with compensation of gravity, the kinetic energy plus that of springs of stiffness `kp` towards the goal changes by the power of the damping and
of the friction. -/
theorem C79_rate (h : ∀ t, Source y c (st t) (R t)) (hU : UnitNumeric c) (hd : Driven c st u) (hu : GravityCompensated c st R kp kd p u) {t : ℝ}
    (ht : 0 ≤ t) : HasDerivAt (fun z => kineticOf c (st z).q (st z).dq + 1 / 2 * ∑ i, kp i * ((st z).q i - p i) ^ 2)
      (-(∑ i, kd i * (st t).dq i ^ 2) - (st t).dq ⬝ᵥ frictionOf c c.dl (st t).dq) t := by
  obtain ⟨h1, h2, -, -⟩ := C58_energy (h 0) hU
  have := springs_rate (q := fun z => (st z).q) (v := fun z => (st z).dq) (a := fun z => (st z).ddq) (M := massOf c) (C := coriolisOf c)
    (f := frictionOf c c.dl) h2 (mass_rate (h t).pos (h t).typed hU (hd.q t ht) (hd.dq t ht)) (hd.q t ht) (hd.dq t ht) (springs_law h hU hd hu ht)
  simpa only [h1] using this

/-- C79: with positive gains, links that have inertia and friction that does not accelerate, the robot comes to rest at the goal, from whatever position and
velocity. -/
theorem C79_rests (h : ∀ t, Source y c (st t) (R t)) (hU : UnitNumeric c) (hp : Physical c.dyn c.n) (ho : ∀ i < c.n, 0 < ownInertia c.dyn i (kindOf c i))
    (hc : ∀ k < c.n * c.dlO, 0 ≤ c.dl k) (hd : Driven c st u) (hu : GravityCompensated c st R kp kd p u) (h0 : ∀ i, 0 < kp i ∧ 0 < kd i) (i : Fin c.n) :
    Tendsto (fun t => (st t).q i) atTop (𝓝 (p i)) ∧ Tendsto (fun t => (st t).dq i) atTop (𝓝 0) := by
  have hn := (h 0).pos
  have hty := (h 0).typed
  refine springs_rest (q := fun z => (st z).q) (v := fun z => (st z).dq) (a := fun z => (st z).ddq) (M := massOf c) (C := coriolisOf c)
    (f := frictionOf c c.dl) (C58_energy (h 0) hU).2.1 (fun q v hv => massOf_pos hn hty hU ⟨q, 0, 0, 0, 0, 0, 0, 0, 0, 0⟩ hp ho hv)
    (continuous_massOf hn hty hU (st 0)) (continuous_coriolisOf hn hty hU (st 0)) (fun i => ?_) ?_ (fun v => ?_)
    (fun t ht => mass_rate hn hty hU (hd.q t ht) (hd.dq t ht)) hd.q hd.dq (fun t ht => springs_law h hU hd hu ht) h0 i
  · show Continuous fun v : Fin c.n → ℝ => ∑ k ∈ Finset.range c.dlO, c.dl (i * c.dlO + k) * (|v i| ^ k * v i)
    exact continuous_finsetSum _ fun k _ => continuous_const.mul (((continuous_apply i).abs.pow k).mul (continuous_apply i))
  · funext i
    show ∑ k ∈ Finset.range c.dlO, c.dl (i * c.dlO + k) * (|(0 : ℝ)| ^ k * 0) = 0
    simp
  · exact Finset.sum_nonneg fun i _ => friction_dissipative (fun k hk => hc _ (coef_lt i.2 hk)) _

end

/-! ## The slider -/

namespace Ex

open Spec Robot

theorem inertia_slider : Physical (slider false).dyn (slider false).n ∧
    ∀ i < (slider false).n, 0 < ownInertia (slider false).dyn i (kindOf (slider false) i) := by
  refine ⟨fun i hi => physical_solid i (lt_of_lt_of_le hi (by decide)), fun i hi => ?_⟩
  obtain rfl : i = 0 := Nat.lt_one_iff.1 hi
  rw [show kindOf (slider false) 0 = .prismatic from rfl]
  simp [ownInertia, mass, slider, solid]

/-- Without torques the slider is slowed down by its friction on its way from -1 to 0. -/
theorem driven_slowing : @Driven fl (slider false) (slowing false) fun _ => 0 := by
  let _ := fl
  exact ⟨fun t _ _ => hasDerivAt_slowing' t, fun t _ _ => hasDerivAt_slowing t, fun t _ => slowing_balance false t⟩

/-- No torque is what both controllers with the goal 0 compute along this motion, with the gains 1 and 2, or 1 and 1. -/
theorem controllers_slowing {R : ℝ → String → Mat → Prop} (hs : ∀ t, @Source fl (fileOf (slider false)) (slider false) (slowing false t) (R t)) :
    ComputedTorque (slider false) (slowing false) R (fun t => (slowing false t).ddq) (fun _ => 0) ∧
    Follows (slider false) (slowing false) (fun _ => 1) (fun _ => 2) (fun _ => 0) (fun _ => 0) (fun _ => 0) (fun t => (slowing false t).ddq) ∧
    GravityCompensated (slider false) (slowing false) R (fun _ => 1) (fun _ => 1) 0 fun _ => 0 := by
  let _ := fl
  refine ⟨fun t ht M C G f hM hC hG hf => ?_, fun t _ i => ?_, fun t _ G hG i => ?_⟩
  · obtain ⟨h1, h2, -, h3⟩ := C58_matrices (hs t) (unit_slider false)
    have e1 := C63_determined (hs t) hM h1
    have e2 := C63_determined (hs t) hC h2
    have e3 : G = gravityOf (slider false) (slowing false t).q := funext fun i => congrFun (congrFun (C63_determined (hs t) hG h3) i) 0
    have e4 : f = frictionOf (slider false) (slider false).dl (slowing false t).dq :=
      funext fun i => congrFun (congrFun (C63_determined (hs t) (hf.1 Nat.one_pos) (C60_link (hs t) Nat.one_pos).1) i) 0
    rw [e1, e2, e3, e4]
    exact (slowing_balance false t).symm
  · show -Real.exp (-t) = 0 - 2 * (Real.exp (-t) - 0) - 1 * (-Real.exp (-t) - 0)
    ring
  · obtain ⟨-, -, -, h3⟩ := C58_matrices (hs t) (unit_slider false)
    have e3 : G = gravityOf (slider false) (slowing false t).q := funext fun i => congrFun (congrFun (C63_determined (hs t) hG h3) i) 0
    rw [e3, gravity_slider]
    show (0 : ℝ) = 0 - 1 * (-Real.exp (-t) - 0) - 1 * Real.exp (-t)
    ring

/-- Both theorems give that the slider comes to rest at 0. -/
example : ∃ R : ℝ → String → Mat → Prop, (∀ t, @Source fl (fileOf (slider false)) (slider false) (slowing false t) (R t)) ∧ (slowing false 0).q ≠ 0 ∧
    (∀ i, Tendsto (fun t => (slowing false t).q i - 0) atTop (𝓝 0)) ∧ ∀ i, Tendsto (fun t => (slowing false t).q i) atTop (𝓝 0) := by
  let _ := fl
  choose r hr using reachable_slowing false
  have hs : ∀ t, Source (fileOf (slider false)) (slider false) (slowing false t) (answers (r t)) := fun t => .robot (hr t)
  obtain ⟨hp, ho⟩ := inertia_slider
  obtain ⟨h1, h2, h3⟩ := controllers_slowing hs
  refine ⟨_, hs, fun e => ?_, fun i => ?_, fun i => ?_⟩
  · have h0 : -Real.exp (-0) = 0 := congrFun e ⟨0, by decide⟩
    simp at h0
  · exact (C79_tends hs (unit_slider false) hp ho driven_slowing h1 h2 (fun _ => ⟨one_pos, two_pos⟩) (fun _ _ _ => hasDerivAt_const _ _)
      (fun _ _ _ => hasDerivAt_const _ _) i).1
  · exact (C79_rests hs (unit_slider false) hp ho (fun _ _ => zero_le_one) driven_slowing h3 (fun _ => ⟨one_pos, one_pos⟩) i).1

end Ex

end

end Thunder
