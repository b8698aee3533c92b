import Verif.Lemmas.SystemClass
import Verif.Props.Pinv
import Verif.Props.Pipeline
import Verif.Props.Examples
import Verif.Props.Generated
import Verif.Spec.Wrapper

/-!
# What a robot built from a configuration file returns, in terms of the mechanism described by the file: C56 – C60

The file is read, all functions are computed and registered, the parameters are compacted, the robot is used; `get` then gives the frames, the Jacobians,
the dynamics, the regressors and the friction and elastic terms of the mechanism of the file at the current values of the variables and of the symbolic
parameters.  The getters of an object of the generated class give the same (C61); the theorems are stated for both (`Source`).
-/

open scoped Classical
open Matrix

namespace Thunder

noncomputable section

open Spec Robot SX

section

variable [Fl] {y : Yaml} {c : Conf} {s : State c} {R : String → Mat → Prop}

/-! ## Every state can be reached -/

/-- C56: a robot just built from a file has the parameters of the file, and its variables are zero. -/
theorem C56_start {c : Conf} (h : Describes y c) (hj : JointsOk c) {name : String} (hnm : RobotName name) :
    ∃ r, robotFromFile name (some y) true = .ok r ∧ Running y c ⟨0, 0, 0, 0, 0, 0, 0, 0, 0, 0⟩ r := by
  obtain ⟨r, e, hd⟩ := fromFile_ok h hj.1 (typed_of hj) hnm
  exact ⟨r, e, ⟨c, h, hj, retuned_refl c⟩, ⟨name, r, [], e, fun _ hx => by simp at hx, rfl⟩, holds_zero hd.arg⟩

/-- C56: any values of the variables and of the symbolic parameters can be reached. -/
theorem C56_reachable {c₀ c : Conf} (h : Describes y c₀) (hj : JointsOk c₀) (hc : Retuned c₀ c) (s : State c) : ∃ r, Running y c s r := by
  obtain ⟨r₀, e, -⟩ := fromFile_ok h hj.1 (typed_of hj) (name := "robot") (robotName_of_check (f := "M") (by decide +kernel))
  obtain ⟨r, -, hr⟩ := running_reach h hj hc s e
  exact ⟨r, hr⟩

/-! ## The generated class -/

/-- C61: the getters of an object of the generated class answer what `get` answers on a robot with the same values. -/
theorem C61_class {g : Robot} {o : Wrap.Obj} (h : Generated y c s g o) :
    ∃ r, Running y c s r ∧ ∀ f ∈ library c, ∃ mat, answers r f mat ∧ classAnswers g o f mat := by
  obtain ⟨c₀, hd, hj, hc⟩ := h.file
  obtain ⟨name, e⟩ := h.gen
  obtain ⟨r, ho, hr⟩ := running_reach hd hj hc s e
  refine ⟨r, hr, fun f hf => ?_⟩
  obtain ⟨F, hv, rfl⟩ := Fn.mem_library.1 hf
  exact h.same ho hr hv

/-- C61: from a new object, by loading the file and calling setters, any values of the variables and of the symbolic parameters can be reached. -/
theorem C61_reachable {c₀ c : Conf} (h : Describes y c₀) (hj : JointsOk c₀) (hc : Retuned c₀ c) (s : State c) {name : String} {g : Robot}
    (e : robotFromFile name (some y) true = .ok g) :
    ∃ calls o, Wrap.runAll (Wrap.cfgOf g) (.loadConf (some y) true :: calls) (Wrap.init (Wrap.cfgOf g)) = some o ∧ Generated y c s g o := by
  obtain ⟨r, -, hr⟩ := running_reach h hj hc s e
  obtain ⟨g', e', hd⟩ := fromFile_ok h hj.1 (typed_of hj) (robotName_of_ok h e)
  obtain rfl : g' = g := by rw [e] at e'; cases e'; rfl
  rw [Wrap.cfgOf_fixed hd.toFixed]
  obtain ⟨o₁, e₁, hs, -, hl, -⟩ := Wrap.loadConf_ok h true (Wrap.sized_init (Wrap.cfg c₀)) (Wrap.symbs_init c₀)
  obtain ⟨calls, o, eo, ho⟩ := stores_reach hc hr.args hl hs
  refine ⟨calls, o, ?_, ⟨c₀, h, hj, hc⟩, ⟨name, e⟩, ho⟩
  rw [Wrap.runAll, Wrap.Call.run, e₁]
  exact eo

/-- C61: when the symbolic parameters of links and actuators come first in their vectors, loading the file is enough, whatever the order of loading and of
setting the variables. -/
theorem C61_loaded {c : Conf} (h : Describes y c) (hj : JointsOk c) (ha : Aligned c) {name : String} {g : Robot}
    (e : robotFromFile name (some y) true = .ok g) {steps : List Step} (hf : ∀ st ∈ steps, st.Fits c) (hl : ∃ u, .load u ∈ steps) :
    ∃ o, Wrap.runAll (Wrap.cfgOf g) (steps.map (Step.onClass y)) (Wrap.init (Wrap.cfgOf g)) = some o ∧
      (∀ f, o.vec (varMember f) = lastSet c f steps) ∧ ∀ s : State c, Moves c s o → Generated y c s g o := by
  obtain ⟨g', e', hd⟩ := fromFile_ok h hj.1 (typed_of hj) (robotName_of_ok h e)
  obtain rfl : g' = g := by rw [e] at e'; cases e'; rfl
  rw [Wrap.cfgOf_fixed hd.toFixed]
  obtain ⟨r1, o, -, -, g1, p1, l1⟩ := Wrap.Pair.steps h steps (Wrap.pair_init hd) hf
  refine ⟨o, g1, fun f => ?_, fun s hm => ⟨⟨c, h, hj, retuned_refl c⟩, ⟨name, e⟩, (l1 (.inr hl)).stores ha hm⟩⟩
  have h1 := Wrap.Pair.vec h f steps (Wrap.pair_init hd) hf g1
  have h2 : f.field = varMember f := by cases f <;> rfl
  rw [← h2, h1]
  unfold lastSet
  congr 1
  show List.replicate ((Wrap.cfg c).size f.field) _ = _
  rw [Wrap.components_eq]
  cases f <;> rfl

/-! ## Frames -/

/-- C56: `T_0`, `T_i`, `T_0_i` and `T_0_ee` are the frames of the mechanism. -/
theorem C56_frames (h : Source y c s R) :
    Returns R "T_0" (mountOf c.fw2l c.w2l) ∧
    (∀ i (hi : i < c.n), Returns R ("T_" ++ toString (i + 1)) (linkOf c i (s.q ⟨i, hi⟩))) ∧
    (∀ i ≤ c.n, Returns R ("T_0_" ++ toString i) (linkFrame c s.q i)) ∧
    Returns R ("T_0_" ++ toString (c.n + 1)) (toolFrame c s.q) ∧
    Returns R "T_0_ee" (toolFrame c s.q) := by
  refine ⟨?_, fun i hi => ?_, fun i hi => ?_, ?_, ?_⟩
  · exact h.gives (.T 0) (Nat.zero_le _) (by decide) rfl rfl (val_T0 h.pos h.typed s (Nat.zero_le _))
  · exact h.gives (.T (i + 1)) hi rfl rfl rfl (val_Ti h.pos h.typed s hi)
  · refine h.gives (.T0 i) (Nat.le_succ_of_le hi) rfl rfl rfl ?_
    have e : (Fn.T0 i).expr (base c) c = (base c).T0 i := if_neg (show i ≠ c.n + 1 by omega)
    rw [e]
    exact val_T0 h.pos h.typed s hi
  · refine h.gives (.T0 (c.n + 1)) (le_refl _) rfl rfl rfl ?_
    have e : (Fn.T0 (c.n + 1)).expr (base c) c = (base c).T0ee := if_pos rfl
    rw [e]
    exact val_T0ee h.pos h.typed s
  · exact h.gives .T0ee trivial (by decide) rfl rfl (val_T0ee h.pos h.typed s)

/-- C56: they are rigid motions when the numeric angles have a cosine and a sine on the unit circle. -/
theorem C56_rigid (h : Source y c s R) (hU : UnitNumeric c) (q : Fin c.n → ℝ) : (∀ i ≤ c.n, IsRigid (linkFrame c q i)) ∧ IsRigid (toolFrame c q) :=
  isRigid_linkFrame h.pos h.typed hU q s

/-- C56: they are the ideal Denavit–Hartenberg frames when the cosine and the sine of the numeric angles are exact. -/
theorem C56_ideal (hE : ExactNumeric c) (q : Fin c.n → ℝ) :
    (∀ i ≤ c.n, linkFrame c q i = fk (frame (fun k => c.w2l k) (cs (c.w2l 3)) (cs (c.w2l 4)) (cs (c.w2l 5))) (kindOf c) (fun i k => c.dh (4 * i + k))
      (fun i => if hi : i < c.n then q ⟨i, hi⟩ else 0) i) ∧
    toolFrame c q = linkFrame c q c.n * frame (fun k => c.ee k) (cs (c.ee 3)) (cs (c.ee 4)) (cs (c.ee 5)) := by
  have hw : ∀ i, 3 ≤ i → i < 6 → angleOf (c.fw2l i) (c.w2l i) = cs (c.w2l i) := fun i h3 h6 =>
    angleOf_exact fun h0 => hE _ (.inr (.inr ⟨i, h3, h6, .inl ⟨h0, rfl⟩⟩))
  have he : ∀ i, 3 ≤ i → i < 6 → angleOf (c.fee i) (c.ee i) = cs (c.ee i) := fun i h3 h6 =>
    angleOf_exact fun h0 => hE _ (.inr (.inr ⟨i, h3, h6, .inr ⟨h0, rfl⟩⟩))
  refine ⟨fun i hi => ?_, ?_⟩
  · induction i with
    | zero =>
      show mountOf c.fw2l c.w2l = _
      unfold mountOf
      rw [hw 3 (by omega) (by omega), hw 4 (by omega) (by omega), hw 5 (by omega) (by omega)]
      rfl
    | succ i ih =>
      have hi' : i < c.n := hi
      rw [linkFrame, fk, ih (by omega), dif_pos hi', dif_pos hi']
      congr 1
      have ha : angleOf (c.fdh (4 * i + 1)) (c.dh (4 * i + 1)) = cs (c.dh (4 * i + 1)) := angleOf_exact fun h0 => hE _ (.inl ⟨i, hi', h0, rfl⟩)
      unfold linkOf
      rw [ha]
      cases hk : kindOf c i with
      | revolute => rfl
      | prismatic =>
        simp only
        rw [angleOf_exact fun h0 => hE _ (.inr (.inl ⟨i, hi', hk, h0, rfl⟩))]
        rfl
  · unfold toolFrame mountOf
    rw [he 3 (by omega) (by omega), he 4 (by omega) (by omega), he 5 (by omega) (by omega)]

/-! ## Jacobians -/

/-- C57: `J_i` and `J_ee` are the geometric Jacobians of the frames. -/
theorem C57_jacobians (h : Source y c s R) (hU : UnitNumeric c) :
    (∀ i < c.n, Returns R ("J_" ++ toString (i + 1)) (jacobianOf (fun q => linkFrame c q (i + 1)) s.q)) ∧
    Returns R ("J_" ++ toString (c.n + 1)) (jacobianOf (toolFrame c) s.q) ∧
    Returns R "J_ee" (jacobianOf (toolFrame c) s.q) := by
  have he := val_Jee h.pos h.typed s hU
  refine ⟨fun i hi => ?_, ?_, ?_⟩
  · exact h.gives (.J (i + 1)) ⟨by omega, by omega⟩ rfl rfl rfl (val_J h.pos h.typed s hU hi)
  · exact h.gives (.J (c.n + 1)) ⟨by omega, by omega⟩ rfl rfl rfl he
  · exact h.gives .Jee trivial (by decide) rfl rfl he

/-- C57: these are derivatives of differentiable functions. -/
theorem C57_derivative (h : Source y c s R) (hU : UnitNumeric c) :
    (∀ i < c.n, IsLinearJacobian (fun q => linkFrame c q (i + 1)) s.q (jacobianOf (fun q => linkFrame c q (i + 1)) s.q) ∧
      IsAngularJacobian (fun q => linkFrame c q (i + 1)) s.q (jacobianOf (fun q => linkFrame c q (i + 1)) s.q)) ∧
    IsLinearJacobian (toolFrame c) s.q (jacobianOf (toolFrame c) s.q) ∧ IsAngularJacobian (toolFrame c) s.q (jacobianOf (toolFrame c) s.q) := by
  refine ⟨fun i hi => ?_, ?_⟩
  · rw [← val_J h.pos h.typed s hU hi]
    exact jac_link h.pos h.typed s hU hi
  · rw [← val_Jee h.pos h.typed s hU]
    exact jac_tool h.pos h.typed s hU

/-- C57: `J_cm_i` is the Jacobian of the centre of mass of link `i`. -/
theorem C57_com (h : Source y c s R) (hU : UnitNumeric c) {i : ℕ} (hi : i < c.n) :
    Returns R ("J_cm_" ++ toString (i + 1)) (jacobianAt (fun q => linkFrame c q (i + 1)) (com c.dyn i) s.q) ∧
    ∀ (j : Fin c.n) (a : Fin 3), HasDerivAt (fun t => point (linkFrame c (Function.update s.q j t) (i + 1)) (com c.dyn i) a)
      (lin (jacobianAt (fun q => linkFrame c q (i + 1)) (com c.dyn i) s.q) a j) (s.q j) := by
  obtain ⟨h1, h2⟩ := val_Jcm h.pos h.typed hU s hi
  refine ⟨h.gives (.Jcm (i + 1)) ⟨by omega, by omega⟩ rfl rfl rfl h2, ?_⟩
  rw [← h2]
  exact h1

/-- C57: `J_ee_dot` and `J_ee_ddot` are the derivatives of the Jacobian of the tool along any motion with the current velocity and acceleration. -/
theorem C57_rates (h : Source y c s R) (hU : UnitNumeric c) :
    ∃ A B : Matrix (Fin 6) (Fin c.n) ℝ, Returns R "J_ee_dot" A ∧ Returns R "J_ee_ddot" B ∧
      (∀ (q : ℝ → Fin c.n → ℝ) (t : ℝ), q t = s.q → (∀ i, HasDerivAt (fun x => q x i) (s.dq i) t) →
        ∀ a b, HasDerivAt (fun x => jacobianOf (toolFrame c) (q x) a b) (A a b) t) ∧
      ∀ (q dq : ℝ → Fin c.n → ℝ) (t : ℝ), q t = s.q → dq t = s.dq → (∀ x i, HasDerivAt (fun x => q x i) (dq x i) x) →
        (∀ i, HasDerivAt (fun x => dq x i) (s.ddq i) t) → ∀ a b, HasDerivAt (deriv fun x => jacobianOf (toolFrame c) (q x) a b) (B a b) t :=
  ⟨_, _, h.gives .JeeDot trivial (by decide) rfl rfl rfl, h.gives .JeeDdot trivial (by decide) rfl rfl rfl,
    fun _ _ h0 h1 a b => Jee_dot h.pos h.typed hU s h0 h1 a b,
    fun _ _ _ h0 h1 h2 h3 a b => Jee_ddot h.pos h.typed hU s h0 h1 h2 h3 a b⟩

/-- C57: `J_ee_pinv` gives the only minimiser of the damped least squares problem. -/
theorem C57_pinv (h : Source y c s R) (hU : UnitNumeric c) :
    ∃ P : Matrix (Fin c.n) (Fin 6) ℝ, Returns R "J_ee_pinv" P ∧ ∀ (v : Fin 6 → ℝ) (x : Fin c.n → ℝ), x ≠ P *ᵥ v →
      (jacobianOf (toolFrame c) s.q *ᵥ (P *ᵥ v) - v) ⬝ᵥ (jacobianOf (toolFrame c) s.q *ᵥ (P *ᵥ v) - v) + 0.02 * ((P *ᵥ v) ⬝ᵥ (P *ᵥ v)) <
        (jacobianOf (toolFrame c) s.q *ᵥ x - v) ⬝ᵥ (jacobianOf (toolFrame c) s.q *ᵥ x - v) + 0.02 * (x ⬝ᵥ x) := by
  refine ⟨_, h.gives .JeePinv trivial (by decide) rfl rfl rfl, ?_⟩
  rw [← val_Jee h.pos h.typed s hU]
  exact (C08_pinv (B := base c) (env c s)).2

/-! ## Dynamics -/

/-- C58: `M`, `C`, `C_std` and `G` are the mass matrix, the Coriolis matrix and the gravity terms of the mechanism. -/
theorem C58_matrices (h : Source y c s R) (hU : UnitNumeric c) :
    Returns R "M" (massOf c s.q) ∧ Returns R "C" (coriolisOf c s.q s.dq) ∧ Returns R "C_std" (coriolisOf c s.q s.dq) ∧
    ReturnsVec R "G" (gravityOf c s.q) :=
  ⟨h.gives .M trivial (by decide) rfl rfl (val_M h.pos h.typed hU s), h.gives .C trivial (by decide) rfl rfl (val_C h.pos h.typed hU s),
    h.gives .Cstd trivial (by decide) rfl rfl (val_Cstd h.pos h.typed hU s), h.givesVec .G trivial (by decide) rfl rfl (vec_G h.pos h.typed hU s)⟩

/-- C58: the kinetic energy is the quadratic form of the mass matrix; the functions whose derivatives enter the Coriolis matrix and the gravity terms
are differentiable. -/
theorem C58_energy (h : Source y c s R) (hU : UnitNumeric c) :
    (∀ q v, kineticOf c q v = 1 / 2 * (v ⬝ᵥ massOf c q *ᵥ v)) ∧ (∀ q, (massOf c q)ᵀ = massOf c q) ∧
    (∀ q a b k, DifferentiableAt ℝ (fun x => massOf c (Function.update q k x) a b) (q k)) ∧
    ∀ q j, HasDerivAt (fun x => potentialOf c (Function.update q j x)) (gravityOf c q j) (q j) := by
  refine ⟨fun q v => ?_, fun q => ?_, fun q a b k => diff_massOf h.pos h.typed hU s q a b k, fun q j => ?_⟩
  · rw [kineticOf_eq h.pos h.typed s hU, val_M h.pos h.typed hU]
  · rw [← M_q h.pos h.typed hU s]
    exact C10_symm (B := base c) _
  · have := grad_q h.pos h.typed hU s q j
    rwa [vec_G h.pos h.typed hU] at this

/-- C58: `M_dot` … `G_ddot` are derivatives along any motion with the current velocity, acceleration and jerk. -/
theorem C58_rates (h : Source y c s R) (hU : UnitNumeric c) :
    ∃ (M₁ M₂ C₁ C₂ : Matrix (Fin c.n) (Fin c.n) ℝ) (G₁ G₂ : Fin c.n → ℝ),
      Returns R "M_dot" M₁ ∧ Returns R "C_dot" C₁ ∧ ReturnsVec R "G_dot" G₁ ∧ Returns R "M_ddot" M₂ ∧ Returns R "C_ddot" C₂ ∧ ReturnsVec R "G_ddot" G₂ ∧
      (∀ (q dq : ℝ → Fin c.n → ℝ) (t : ℝ), q t = s.q → dq t = s.dq → (∀ i, HasDerivAt (fun x => q x i) (dq t i) t) →
        (∀ i, HasDerivAt (fun x => dq x i) (s.ddq i) t) → ∀ a b,
        HasDerivAt (fun x => massOf c (q x) a b) (M₁ a b) t ∧ HasDerivAt (fun x => gravityOf c (q x) a) (G₁ a) t ∧
        HasDerivAt (fun x => coriolisOf c (q x) (dq x) a b) (C₁ a b) t) ∧
      ∀ (q dq ddq : ℝ → Fin c.n → ℝ) (t : ℝ), q t = s.q → dq t = s.dq → ddq t = s.ddq → (∀ x i, HasDerivAt (fun x => q x i) (dq x i) x) →
        (∀ x i, HasDerivAt (fun x => dq x i) (ddq x i) x) → (∀ i, HasDerivAt (fun x => ddq x i) (s.d3q i) t) → ∀ a b,
        HasDerivAt (deriv fun x => massOf c (q x) a b) (M₂ a b) t ∧ HasDerivAt (deriv fun x => gravityOf c (q x) a) (G₂ a) t ∧
        HasDerivAt (deriv fun x => coriolisOf c (q x) (dq x) a b) (C₂ a b) t :=
  ⟨_, _, _, _, _, _, h.gives .Mdot trivial (by decide) rfl rfl rfl, h.gives .Cdot trivial (by decide) rfl rfl rfl,
    h.givesVec .Gdot trivial (by decide) rfl rfl rfl, h.gives .Mddot trivial (by decide) rfl rfl rfl, h.gives .Cddot trivial (by decide) rfl rfl rfl,
    h.givesVec .Gddot trivial (by decide) rfl rfl rfl,
    fun _ _ _ h0 h1 h2 h3 a b => MGC_dot h.pos h.typed hU s h0 h1 h2 h3 a b,
    fun _ _ _ _ h0 h1 h2 h3 h4 h5 a b => MGC_ddot h.pos h.typed hU s h0 h1 h2 h3 h4 h5 a b⟩

/-- C58: `M ddq + C dq + G` are the generalised forces of the Lagrange equations of the mechanism along any motion through the current state. -/
theorem C58_lagrange (h : Source y c s R) (hU : UnitNumeric c) {q dq : ℝ → Fin c.n → ℝ} {t : ℝ} (hq0 : q t = s.q) (hdq0 : dq t = s.dq)
    (hq : ∀ x i, HasDerivAt (fun x => q x i) (dq x i) x) (hdq : ∀ i, HasDerivAt (fun x => dq x i) (s.ddq i) t) :
    ∃ (M C : Matrix (Fin c.n) (Fin c.n) ℝ) (G : Fin c.n → ℝ) (P : ℝ → Fin c.n → ℝ) (Q : Fin c.n → ℝ),
      Returns R "M" M ∧ Returns R "C" C ∧ ReturnsVec R "G" G ∧
      (∀ x k, HasDerivAt (fun z => lagrangianOf c (q x) (Function.update (dq x) k z)) (P x k) (dq x k)) ∧
      (∀ k, HasDerivAt (fun z => lagrangianOf c (Function.update (q t) k z) (dq t)) (Q k) (q t k)) ∧
      ∀ k, HasDerivAt (fun x => P x k) ((M *ᵥ s.ddq + C *ᵥ s.dq + G) k + Q k) t := by
  obtain ⟨h1, h2, -, h3⟩ := C58_matrices h hU
  obtain ⟨P, Q, h4, h5, h6⟩ := lagrange_env h.pos h.typed hU s hq hdq
  rw [hq0, hdq0] at h6
  exact ⟨_, _, _, P, Q, h1, h2, h3, h4, h5, h6⟩

/-- C58: the power of these forces is the derivative of the energy. -/
theorem C58_power (h : Source y c s R) (hU : UnitNumeric c) {q dq : ℝ → Fin c.n → ℝ} {t : ℝ} (hq0 : q t = s.q) (hdq0 : dq t = s.dq)
    (hq : ∀ i, HasDerivAt (fun x => q x i) (dq t i) t) (hdq : ∀ i, HasDerivAt (fun x => dq x i) (s.ddq i) t) :
    ∃ (M C : Matrix (Fin c.n) (Fin c.n) ℝ) (G : Fin c.n → ℝ), Returns R "M" M ∧ Returns R "C" C ∧ ReturnsVec R "G" G ∧
      HasDerivAt (fun x => kineticOf c (q x) (dq x) + potentialOf c (q x)) (s.dq ⬝ᵥ (M *ᵥ s.ddq + C *ᵥ s.dq + G)) t := by
  obtain ⟨h1, h2, -, h3⟩ := C58_matrices h hU
  have h4 := energy_env h.pos h.typed hU s hq hdq
  rw [hq0, hdq0] at h4
  exact ⟨_, _, _, h1, h2, h3, h4⟩

/-! ## Regressors -/

/-- C59: `Yr`, `reg_M`, `reg_C` and `reg_G` give, for any inertial parameters, the inverse dynamics of the mechanism with these parameters. -/
theorem C59_inertial (h : Source y c s R) (hU : UnitNumeric c) :
    ∃ Y YM YC YG : Matrix (Fin c.n) (Fin (10 * c.n)) ℝ, Returns R "Yr" Y ∧ Returns R "reg_M" YM ∧ Returns R "reg_C" YC ∧ Returns R "reg_G" YG ∧
      Y = YM + YC + YG ∧ ∀ p : ℕ → ℝ,
        YM *ᵥ (fun k => reg p k) = massOf (withDyn c p) s.q *ᵥ s.ddqr ∧
        YC *ᵥ (fun k => reg p k) = coriolisOf (withDyn c p) s.q s.dq *ᵥ s.dqr ∧
        YG *ᵥ (fun k => reg p k) = gravityOf (withDyn c p) s.q ∧
        Y *ᵥ (fun k => reg p k) = massOf (withDyn c p) s.q *ᵥ s.ddqr + coriolisOf (withDyn c p) s.q s.dq *ᵥ s.dqr + gravityOf (withDyn c p) s.q := by
  refine ⟨_, _, _, _, h.gives .Yr trivial (by decide) rfl rfl rfl, h.gives .regM trivial (by decide) rfl rfl rfl,
    h.gives .regC trivial (by decide) rfl rfl rfl, h.gives .regG trivial (by decide) rfl rfl rfl, reg_Y h.pos h.typed hU s, fun p => ?_⟩
  have hM := reg_M h.pos h.typed hU s p
  have hC := reg_C h.pos h.typed hU s p
  have hG := reg_G h.pos h.typed hU s p
  refine ⟨hM, hC, hG, ?_⟩
  have hY := reg_Y h.pos h.typed hU s
  show SX.val (env c s) (base c).Yr c.n (10 * c.n) *ᵥ (fun k => reg p k) = _
  rw [hY, add_mulVec, add_mulVec, hM, hC, hG]
  rfl

/-- C59: the columns of `reg_Jdq` and `reg_JTw` are the derivatives of `J_ee dq` and `J_eeᵀ w` with respect to the symbolic kinematic parameters, in the
order of the file. -/
theorem C59_kinematic (h : Source y c s R) (hU : UnitNumeric c) (hp : kinPars c ≠ []) :
    ∃ (A : Matrix (Fin 6) (Fin (kinPars c).length) ℝ) (B : Matrix (Fin c.n) (Fin (kinPars c).length) ℝ),
      Returns R "reg_Jdq" A ∧ Returns R "reg_JTw" B ∧ ∀ j,
        (∀ a, HasDerivAt (fun t => (jacobianOf (toolFrame (setPar c (kinPars c)[j] t)) s.q *ᵥ s.dq) a) (A a j) (getPar c (kinPars c)[j])) ∧
        ∀ a, HasDerivAt (fun t => ((jacobianOf (toolFrame (setPar c (kinPars c)[j] t)) s.q)ᵀ *ᵥ s.w) a) (B a j) (getPar c (kinPars c)[j]) := by
  have h2 : (Key.DH.vars c ++ Key.W2L.vars c ++ Key.EE.vars c).length = (kinPars c).length := length_kinPars c
  have h1 : Key.DH.vars c ++ Key.W2L.vars c ++ Key.EE.vars c ≠ [] := fun e => hp (List.length_eq_zero_iff.1 (by rw [← h2, e]; rfl))
  exact ⟨_, _, h.gives .regJdq h1 (by decide) rfl h2 rfl, h.gives .regJTw h1 (by decide) rfl h2 rfl, fun j =>
    ⟨fun a => reg_Jdq h.pos h.typed hU s j a, fun a => reg_JTw h.pos h.typed hU s j a⟩⟩

/-! ## Friction and elastic joints -/

/-- C60: `dl` is the friction of the links, with one polynomial in the velocity per joint; `Dl_i` is the matrix of the coefficients of order `i`. -/
theorem C60_link (h : Source y c s R) (hd : 0 < c.dlO) :
    ReturnsVec R "dl" (frictionOf c c.dl s.dq) ∧ ∀ k < c.dlO, Returns R ("Dl" ++ toString (k + 1)) (gains c.n c.dlO k c.dl) :=
  ⟨h.givesVec .dl hd (by decide) rfl rfl (env_dl h.pos h.typed s hd), fun k hk =>
    h.gives (.Dl (k + 1)) ⟨by omega, by omega⟩ rfl rfl rfl (env_gains s (k := .Dl) rfl hd rfl hk)⟩

/-- C60: `k`, `d`, `dm` and `Mm` are the torques of the springs and dampers, the friction and the inertia of the motors; `K1`, `K3`, …, `D1`, … and
`Dm1`, … are the matrices of their coefficients. -/
theorem C60_elastic (h : Source y c s R) (he : c.elastic = true) :
    (0 < c.kO → ReturnsVec R "k" (springOf c c.K s.q s.x)) ∧ (∀ k < c.kO, Returns R ("K" ++ toString (2 * k + 1)) (gains c.ne c.kO k c.K)) ∧
    (0 < c.dO → ReturnsVec R "d" (damperOf c c.D s.dq s.dx)) ∧ (∀ k < c.dO, Returns R ("D" ++ toString (k + 1)) (gains c.ne c.dO k c.D)) ∧
    (0 < c.dmO → ReturnsVec R "dm" (motorFrictionOf c c.Dm s.dx)) ∧
    (∀ k < c.dmO, Returns R ("Dm" ++ toString (k + 1)) (gains c.ne c.dmO k c.Dm)) ∧
    Returns R "Mm" (gains c.ne 1 0 c.Mm) :=
  ⟨fun h0 => h.givesVec .k ⟨he, h0⟩ (by decide) rfl rfl (env_k h.pos h.typed s he),
    fun k hk => h.gives (.K k) ⟨he, hk⟩ rfl rfl rfl (env_gains s (k := .K) rfl he (size_K he) hk),
    fun h0 => h.givesVec .d ⟨he, h0⟩ (by decide) rfl rfl (env_d h.pos h.typed s he),
    fun k hk => h.gives (.D (k + 1)) ⟨he, by omega, by omega⟩ rfl rfl rfl (env_gains s (k := .D) rfl he (size_D he) hk),
    fun h0 => h.givesVec .dm ⟨he, h0⟩ (by decide) rfl rfl (env_dm s he),
    fun k hk => h.gives (.Dm (k + 1)) ⟨he, by omega, by omega⟩ rfl rfl rfl (env_gains s (k := .Dm) rfl he (size_Dm he) hk),
    h.gives .Mm he (by decide) rfl rfl (val_Mm s he)⟩

/-- C60: `reg_dl`, `reg_k`, `reg_d`, `reg_dm` and `reg_Mm` split these torques, for any values of the symbolic parameters, into a part linear in them and
the part of the numeric ones. -/
theorem C60_regressors (h : Source y c s R) :
    (0 < c.dlO → symbolIdx (c.n * c.dlO) c.fdl ≠ [] → ∃ A, Returns R "reg_dl" A ∧ ∀ p : ℕ → ℝ, (∀ i, c.fdl i = 0 → p i = c.dl i) →
      frictionOf c p s.dq = A *ᵥ (fun j => p (symbolIdx (c.n * c.dlO) c.fdl)[j]) + frictionOf c (numericPart c.fdl p) s.dq) ∧
    (c.elastic = true → symbolIdx (c.ne * c.kO) c.fK ≠ [] → ∃ A, Returns R "reg_k" A ∧ ∀ p : ℕ → ℝ, (∀ i, c.fK i = 0 → p i = c.K i) →
      springOf c p s.q s.x = A *ᵥ (fun j => p (symbolIdx (c.ne * c.kO) c.fK)[j]) + springOf c (numericPart c.fK p) s.q s.x) ∧
    (c.elastic = true → symbolIdx (c.ne * c.dO) c.fD ≠ [] → ∃ A, Returns R "reg_d" A ∧ ∀ p : ℕ → ℝ, (∀ i, c.fD i = 0 → p i = c.D i) →
      damperOf c p s.dq s.dx = A *ᵥ (fun j => p (symbolIdx (c.ne * c.dO) c.fD)[j]) + damperOf c (numericPart c.fD p) s.dq s.dx) ∧
    (c.elastic = true → symbolIdx (c.ne * c.dmO) c.fDm ≠ [] → ∃ A, Returns R "reg_dm" A ∧ ∀ p : ℕ → ℝ, (∀ i, c.fDm i = 0 → p i = c.Dm i) →
      motorFrictionOf c p s.dx = A *ᵥ (fun j => p (symbolIdx (c.ne * c.dmO) c.fDm)[j]) + motorFrictionOf c (numericPart c.fDm p) s.dx) ∧
    (c.elastic = true → symbolIdx c.ne c.fMm ≠ [] → ∃ A, Returns R "reg_Mm" A ∧ ∀ p : ℕ → ℝ, (∀ i, c.fMm i = 0 → p i = c.Mm i) →
      gains c.ne 1 0 p *ᵥ s.ddx = A *ᵥ (fun j => p (symbolIdx c.ne c.fMm)[j]) + gains c.ne 1 0 (numericPart c.fMm p) *ᵥ s.ddx) := by
  refine ⟨fun hd hi => ?_, fun he hi => ?_, fun he hi => ?_, fun he hi => ?_, fun he hi => ?_⟩
  · have hl : (Key.Dl.vars c).length = (symbolIdx (c.n * c.dlO) c.fdl).length := length_symbolIdx (k := .Dl) rfl rfl
    exact ⟨_, h.gives .regDl (vars_symbolIdx hl hi) (by decide) rfl hl rfl, fun p hp => reg_Dl h.pos h.typed s hd p hp⟩
  · have hl : (Key.K.vars c).length = (symbolIdx (c.ne * c.kO) c.fK).length := length_symbolIdx (k := .K) (size_K he) rfl
    exact ⟨_, h.gives .regK (vars_symbolIdx hl hi) (by decide) rfl hl rfl, fun p hp => reg_K h.pos h.typed s he p hp⟩
  · have hl : (Key.D.vars c).length = (symbolIdx (c.ne * c.dO) c.fD).length := length_symbolIdx (k := .D) (size_D he) rfl
    exact ⟨_, h.gives .regD (vars_symbolIdx hl hi) (by decide) rfl hl rfl, fun p hp => reg_D h.pos h.typed s he p hp⟩
  · have hl : (Key.Dm.vars c).length = (symbolIdx (c.ne * c.dmO) c.fDm).length := length_symbolIdx (k := .Dm) (size_Dm he) rfl
    exact ⟨_, h.gives .regDm (vars_symbolIdx hl hi) (by decide) rfl hl rfl, fun p hp => reg_Dm s he p hp⟩
  · have hl : (Key.Mm.vars c).length = (symbolIdx c.ne c.fMm).length := length_symbolIdx (k := .Mm) (size_Mm he) rfl
    exact ⟨_, h.gives .regMm (vars_symbolIdx hl hi) (by decide) rfl hl rfl, fun p hp => reg_Mm s he p hp⟩

end

/-! ## Examples -/

namespace Ex

open Spec Robot

/-- A revolute joint and a prismatic joint with an elastic transmission; some parameters are symbolic, and the numeric angles are quarter turns. -/
def arm : Conf := { mixed with
  dh := fun i => if i % 4 = 1 ∨ i % 4 = 3 then c90 else i / 10
  w2l := fun i => if 3 ≤ i then c90 else i
  ee := fun i => if 3 ≤ i then 0 else i / 4 }

/-- After the symbolic parameters have been changed. -/
def armTuned : Conf := { arm with
  dh := fun i => if i = 3 then 0.2 else if i = 6 then 0.5 else arm.dh i
  dyn := fun i => if i = 0 then 3 else arm.dyn i
  Mm := fun _ => 0.7 }

theorem describes_arm : Describes (fileOf arm) arm := describes_fileOf (fun h => nomatch h)
theorem joints_arm : JointsOk arm := joints_mixed

theorem retuned_arm : Retuned arm armTuned := by
  refine { retuned_refl arm with dh := fun i hi => ?_, dyn := fun i hi => ?_, Mm := fun i hi => ?_, types := rfl, elastic := rfl, kO := rfl, dO := rfl, dmO := rfl, dlO := rfl, fdh := rfl, fw2l := rfl, fee := rfl, fg := rfl, fdyn := rfl, fdl := rfl, fK := rfl, fD := rfl, fDm := rfl, fMm := rfl }
  · have h3 : i ≠ 3 := by rintro rfl; exact absurd hi (by decide)
    have h6 : i ≠ 6 := by rintro rfl; exact absurd hi (by decide)
    simp only [armTuned, if_neg h3, if_neg h6]
  · have h0 : i ≠ 0 := by rintro rfl; exact absurd hi (by decide)
    simp only [armTuned, if_neg h0]
  · exact absurd hi one_ne_zero

theorem unit_arm : @UnitNumeric fl armTuned := by
  have key : ∀ a : ℝ, a = 0 ∨ a = c90 → Spec.snap (fl.cosF a) ^ 2 + Spec.snap (fl.sinF a) ^ 2 = 1 := by
    rintro a (rfl | rfl)
    · rw [snap_zero.1, snap_zero.2]; norm_num
    · rw [snap_c90.1, snap_c90.2]; norm_num
  intro a ha
  refine key a ?_
  rcases ha with ⟨i, hi, -, rfl⟩ | ⟨i, hi, -, h0, rfl⟩ | ⟨i, h3, -, ⟨-, rfl⟩ | ⟨-, rfl⟩⟩
  · right
    have h3 : 4 * i + 1 ≠ 3 := by omega
    have h6 : 4 * i + 1 ≠ 6 := by omega
    simp only [armTuned, arm, if_neg h3, if_neg h6]
    exact if_pos (.inl (by omega))
  · right
    have h3 : 4 * i + 3 ≠ 3 := by
      intro e
      rw [e] at h0
      exact absurd h0 (by decide)
    have h6 : 4 * i + 3 ≠ 6 := by omega
    simp only [armTuned, arm, if_neg h3, if_neg h6]
    exact if_pos (.inr (by omega))
  · right; exact if_pos h3
  · left; exact if_pos h3

/-- A state in motion. -/
def armState : State armTuned :=
  ⟨fun i => i + 1, fun i => 2 - i, fun i => i, fun _ => 1, fun i => i, fun _ => 3, fun i => i, fun _ => 2, fun _ => 1, fun _ => -1⟩

/-- The hypotheses of the theorems can be met together: a robot built from the file and used until it has these values. -/
theorem running_arm : ∃ r, @Running fl (fileOf arm) armTuned armState r := @C56_reachable fl _ _ _ describes_arm joints_arm retuned_arm armState

example : ∃ r, @Running fl (fileOf arm) armTuned armState r ∧ @UnitNumeric fl armTuned ∧ 0 < armTuned.n ∧ 0 < armTuned.dlO ∧ armTuned.elastic = true ∧
    0 < armTuned.kO ∧ kinPars armTuned ≠ [] ∧ symbolIdx (armTuned.n * armTuned.dlO) armTuned.fdl ≠ [] ∧ symbolIdx (armTuned.ne * armTuned.kO) armTuned.fK ≠ [] ∧
    symbolIdx armTuned.ne armTuned.fMm ≠ [] := by
  obtain ⟨r, h⟩ := running_arm
  exact ⟨r, h, unit_arm, by decide, by decide, rfl, by decide, by decide, by decide, by decide, by decide⟩

/-- The inertia of the motor is the new one. -/
example : ∃ r, @Running fl (fileOf arm) armTuned armState r ∧ Returns (answers r) "Mm" (Matrix.of fun (_ _ : Fin 1) => (0.7 : ℝ)) := by
  obtain ⟨r, h⟩ := running_arm
  have := (@C60_elastic fl _ _ _ _ (@Source.robot fl _ _ _ _ h) rfl).2.2.2.2.2.2
  refine ⟨r, h, ?_⟩
  have e : gains armTuned.ne 1 0 armTuned.Mm = Matrix.of fun (_ _ : Fin 1) => (0.7 : ℝ) := by
    refine Matrix.ext fun (a b : Fin 1) => ?_
    obtain rfl : a = b := Subsingleton.elim _ _
    exact Matrix.diagonal_apply_eq _ _
  rwa [e] at this

/-- An object of the generated class with these values. -/
theorem generated_arm : ∃ g o, @Generated fl (fileOf arm) armTuned armState g o := by
  obtain ⟨g, e, -⟩ := @C56_start fl _ _ describes_arm joints_arm "arm" (robotName_of_check (f := "M") (by decide +kernel))
  obtain ⟨-, o, -, h⟩ := @C61_reachable fl _ _ _ describes_arm joints_arm retuned_arm armState _ _ e
  exact ⟨g, o, h⟩

/-- It answers with the mass matrix of the mechanism. -/
example : ∃ g o, @Generated fl (fileOf arm) armTuned armState g o ∧ Returns (classAnswers g o) "M" (@massOf fl armTuned armState.q) := by
  obtain ⟨g, o, h⟩ := generated_arm
  exact ⟨g, o, h, (@C58_matrices fl _ _ _ _ (@Source.generated fl _ _ _ _ _ h) unit_arm).1⟩

/-- Loading the file is enough when the symbolic parameters come first. -/
example : ∃ g o, Wrap.runAll (Wrap.cfgOf g) ([Step.set .q [some 1, some 2], .load true].map (Step.onClass (fileOf front))) (Wrap.init (Wrap.cfgOf g)) = some o ∧
    @Generated fl (fileOf front) front { State.zero front with q := fun i => i + 1 } g o := by
  have hd : Describes (fileOf front) front := describes_fileOf (fun h => nomatch h)
  obtain ⟨g, e, -⟩ := @C56_start fl _ _ hd joints_mixed "front" (robotName_of_check (f := "M") (by decide +kernel))
  obtain ⟨o, h1, h2, h3⟩ := @C61_loaded fl _ _ hd joints_mixed aligned_front _ _ e [Step.set .q [some 1, some 2], .load true]
    (by simp [Step.Fits, components]; decide) ⟨true, by simp⟩
  refine ⟨g, o, h1, h3 _ ?_⟩
  have z : ∀ k : ℕ, List.replicate k (some 0) = stored (0 : Fin k → ℝ) := fun k => (List.ofFn_const k (some (0 : ℝ))).symm
  have hq : [some 1, some 2] = stored (k := 2) fun i => ((i : ℕ) : ℝ) + 1 := by
    unfold stored
    rw [List.ofFn_succ, List.ofFn_succ, List.ofFn_zero]
    norm_num
  exact { q := (h2 .q).trans hq, dq := (h2 .dq).trans (z _), ddq := (h2 .ddq).trans (z _), d3q := (h2 .d3q).trans (z _)
          dqr := (h2 .dqr).trans (z _), ddqr := (h2 .ddqr).trans (z _), w := (h2 .w).trans (z _), x := fun _ => (h2 .x).trans (z _)
          dx := fun _ => (h2 .dx).trans (z _), ddx := fun _ => (h2 .ddx).trans (z _) }

end Ex

end

end Thunder
