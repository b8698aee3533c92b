import Verif.Lemmas.Friction
import Verif.Props.Examples
import Mathlib.Algebra.Polynomial.Roots
import Mathlib.Order.Interval.Set.Infinite

/-!
# Properties C19–C21: link friction and elastic coupling
-/

open scoped Classical
open Matrix

namespace Thunder

noncomputable section

namespace Ex

theorem fricB : B.FricWF 1 := (parX_parVec "par_Dl" [none, some 0.1, none] : ParVec "par_Dl" 3 _)

theorem elasticB : B.ElasticWF 1 2 2 1 where
  m_eq := by simp [Spec.elasticJoints, B, List.range, List.range.loop]
  x := rfl
  dx := rfl
  ddx := rfl
  parK := (parX_parVec "par_K" [none, some 0.5] : ParVec "par_K" 2 _)
  parD := (parX_parVec "par_D" [some 0.2, none] : ParVec "par_D" 2 _)
  parDm := (parX_parVec "par_Dm" [none] : ParVec "par_Dm" 1 _)
  parMm := (parX_parVec "par_Mm" [none] : ParVec "par_Mm" 1 _)

theorem k_val (ρ : Var → ℝ) (a b c x : ℝ) : SX.vec (setV "q" (setV "x" ρ ![x]) ![a, b, c]) (B.kFun 1 2) 1 0 =
    Spec.spring (fun k => parV ρ (parX "par_K" [none, some 0.5]) (0 * 2 + k)) 2 (x - a) :=
  Base.eval_k wf elasticB ρ (![a, b, c] : Fin 3 → ℝ) ![x] 0

theorem d_val (ρ : Var → ℝ) (a b c x : ℝ) : SX.vec (setV "dq" (setV "dx" ρ ![x]) ![a, b, c]) (B.dFun 1 2) 1 0 =
    Spec.friction (fun k => parV ρ (parX "par_D" [some 0.2, none]) (0 * 2 + k)) 2 (x - a) :=
  Base.eval_d wf elasticB ρ (![a, b, c] : Fin 3 → ℝ) ![x] 0

end Ex

variable {B : Base}

/-! ## C19 -/

/-- C19: the friction torque of joint `i` is `Σ_k c_{i,k} |dq_i|^k dq_i`, with the coefficients of joint `i`. -/
theorem C19_law (hB : B.WF) {order : ℕ} (hF : B.FricWF order) (ρ : Var → ℝ) (dq : Fin B.n → ℝ) (i : Fin B.n) :
    SX.vec (setV "dq" ρ dq) (B.dlFun order) B.n i =
      Spec.friction (fun k => parV ρ B.dl (i * order + k)) order (dq i) := Base.eval_dl hB hF ρ dq i

/-- C19: the friction torque changes sign with the velocity. -/
theorem C19_odd (hB : B.WF) {order : ℕ} (hF : B.FricWF order) (ρ : Var → ℝ) (dq : Fin B.n → ℝ) :
    SX.vec (setV "dq" ρ (-dq)) (B.dlFun order) B.n = -SX.vec (setV "dq" ρ dq) (B.dlFun order) B.n := by
  ext i
  rw [Pi.neg_apply, C19_law hB hF, C19_law hB hF, Pi.neg_apply, Spec.friction_neg]

/-- C19: no friction torque at rest. -/
theorem C19_zero (hB : B.WF) {order : ℕ} (hF : B.FricWF order) (ρ : Var → ℝ) :
    SX.vec (setV "dq" ρ (0 : Fin B.n → ℝ)) (B.dlFun order) B.n = 0 := by
  ext i
  rw [C19_law hB hF]; exact Spec.friction_zero _ _

/-- C19: non-negative coefficients dissipate power. -/
theorem C19_dissipative (hB : B.WF) {order : ℕ} (hF : B.FricWF order) (ρ : Var → ℝ) (dq : Fin B.n → ℝ)
    (hc : ∀ k < B.n * order, 0 ≤ parV ρ B.dl k) :
    0 ≤ dq ⬝ᵥ SX.vec (setV "dq" ρ dq) (B.dlFun order) B.n := by
  refine Finset.sum_nonneg fun i _ => ?_
  rw [C19_law hB hF]
  exact Spec.friction_dissipative (fun k hk => hc _ (Base.coef_lt i.2 hk)) _

/-- The example robot: joint 2 has the numeric coefficient 0.1, the others are symbolic (value 3). -/
example : 0 ≤ (![1, -2, 5] : Fin 3 → ℝ) ⬝ᵥ SX.vec (setV "dq" (fun _ => 3) ![1, -2, 5]) (Ex.B.dlFun 1) 3 := by
  refine C19_dissipative Ex.wf Ex.fricB _ (![1, -2, 5] : Fin 3 → ℝ) fun k hk => ?_
  have : k = 0 ∨ k = 1 ∨ k = 2 := by simp only [Ex.B] at hk; omega
  rcases this with rfl | rfl | rfl <;> norm_num [parV, Ex.B, Ex.parX]

example : SX.vec (setV "dq" (fun _ => 3) ![1, -2, 5]) (Ex.B.dlFun 1) 3 1 = -0.2 := by
  have := C19_law Ex.wf Ex.fricB (fun _ => 3) (![1, -2, 5] : Fin 3 → ℝ) (1 : Fin 3)
  refine this.trans ?_
  norm_num [Spec.friction, parV, Ex.B, Ex.parX]

example : SX.vec (setV "dq" (fun _ => 3) (-![1, -2, 5] : Fin 3 → ℝ)) (Ex.B.dlFun 1) 3 =
    -SX.vec (setV "dq" (fun _ => 3) ![1, -2, 5]) (Ex.B.dlFun 1) 3 := C19_odd Ex.wf Ex.fricB _ (![1, -2, 5] : Fin 3 → ℝ)

example : SX.vec (setV "dq" (fun _ => 3) (0 : Fin 3 → ℝ)) (Ex.B.dlFun 1) 3 = 0 := C19_zero Ex.wf Ex.fricB _

/-! ## C20 -/

variable {m kord dord dmord : ℕ}

/-- Deflection seen by the coupling functions of the code: `x_e − q_e` with the same index on both sides (see C21). -/
def deflection (hB : B.WF) (hE : B.ElasticWF m kord dord dmord) (q : Fin B.n → ℝ) (x : Fin m → ℝ) (e : Fin m) : ℝ :=
  x e - q (Fin.castLE (hE.le hB) e)

/-- Stored energy of all springs. -/
def storedEnergy (hB : B.WF) (hE : B.ElasticWF m kord dord dmord) (ρ : Var → ℝ) (q : Fin B.n → ℝ) (x : Fin m → ℝ) : ℝ :=
  ∑ e : Fin m, Spec.springEnergy (fun k => parV ρ B.parK (e * kord + k)) kord (deflection hB hE q x e)

/-- C20: the spring torque is odd in the deflection. -/
theorem C20_k_odd (hB : B.WF) (hE : B.ElasticWF m kord dord dmord) (ρ : Var → ℝ) (q q' : Fin B.n → ℝ) (x x' : Fin m → ℝ)
    (h : ∀ e, deflection hB hE q' x' e = -deflection hB hE q x e) :
    SX.vec (setV "q" (setV "x" ρ x') q') (B.kFun m kord) m = -SX.vec (setV "q" (setV "x" ρ x) q) (B.kFun m kord) m := by
  ext e
  have h' : x' e - q' (Fin.castLE (hE.le hB) e) = -(x e - q (Fin.castLE (hE.le hB) e)) := h e
  rw [Pi.neg_apply, Base.eval_k hB hE, Base.eval_k hB hE, h', Spec.spring_neg]

/-- C20: the spring torque is monotone in the deflection when the coefficients are non-negative. -/
theorem C20_k_mono (hB : B.WF) (hE : B.ElasticWF m kord dord dmord) (ρ : Var → ℝ) (hc : ∀ k < m * kord, 0 ≤ parV ρ B.parK k)
    (q q' : Fin B.n → ℝ) (x x' : Fin m → ℝ) (e : Fin m) (h : deflection hB hE q x e ≤ deflection hB hE q' x' e) :
    SX.vec (setV "q" (setV "x" ρ x) q) (B.kFun m kord) m e ≤ SX.vec (setV "q" (setV "x" ρ x') q') (B.kFun m kord) m e := by
  rw [Base.eval_k hB hE, Base.eval_k hB hE]
  exact Spec.spring_mono (fun k hk => hc _ (Base.coef_lt e.2 hk)) h

/-- C20: the stored energy is non-negative, and the spring torque is its gradient with respect to the motor positions; the
gradient with respect to the link positions is the opposite. -/
theorem C20_k_gradient (hB : B.WF) (hE : B.ElasticWF m kord dord dmord) (ρ : Var → ℝ) (q : Fin B.n → ℝ) (x : Fin m → ℝ) :
    ((∀ k < m * kord, 0 ≤ parV ρ B.parK k) → 0 ≤ storedEnergy hB hE ρ q x) ∧
    (∀ e, HasDerivAt (fun t => storedEnergy hB hE ρ q (Function.update x e t))
      (SX.vec (setV "q" (setV "x" ρ x) q) (B.kFun m kord) m e) (x e)) ∧
    (∀ e, HasDerivAt (fun t => storedEnergy hB hE ρ (Function.update q (Fin.castLE (hE.le hB) e) t) x)
      (-SX.vec (setV "q" (setV "x" ρ x) q) (B.kFun m kord) m e) (q (Fin.castLE (hE.le hB) e))) := by
  refine ⟨fun hc => Finset.sum_nonneg fun e _ => Spec.springEnergy_nonneg (fun k hk => hc _ (Base.coef_lt e.2 hk)) _,
    fun e => ?_, fun e => ?_⟩
  · have key : SX.vec (setV "q" (setV "x" ρ x) q) (B.kFun m kord) m e =
        ∑ e' : Fin m, if e' = e then SX.vec (setV "q" (setV "x" ρ x) q) (B.kFun m kord) m e' else 0 := by simp
    rw [key]
    refine HasDerivAt.fun_sum fun e' _ => ?_
    by_cases he : e' = e
    · subst he
      rw [if_pos rfl, Base.eval_k hB hE]
      have h1 : HasDerivAt (fun t => t - q (Fin.castLE (hE.le hB) e')) 1 (x e') := (hasDerivAt_id (x e')).sub_const _
      have h2 := (Spec.hasDerivAt_springEnergy (fun k => parV ρ B.parK (e' * kord + k)) kord _).comp (x e') h1
      rw [mul_one] at h2
      have e1 : (fun t => Spec.springEnergy (fun k => parV ρ B.parK (e' * kord + k)) kord
          (deflection hB hE q (Function.update x e' t) e')) =
          Spec.springEnergy (fun k => parV ρ B.parK (e' * kord + k)) kord ∘ fun t => t - q (Fin.castLE (hE.le hB) e') := by
        funext t; simp [deflection]
      rw [e1]; exact h2
    · rw [if_neg he]
      have e1 : (fun t => Spec.springEnergy (fun k => parV ρ B.parK (e' * kord + k)) kord
          (deflection hB hE q (Function.update x e t) e')) =
          fun _ => Spec.springEnergy (fun k => parV ρ B.parK (e' * kord + k)) kord (deflection hB hE q x e') := by
        funext t; simp [deflection, Function.update_of_ne he]
      rw [e1]; exact hasDerivAt_const _ _
  · have key : -SX.vec (setV "q" (setV "x" ρ x) q) (B.kFun m kord) m e =
        ∑ e' : Fin m, if e' = e then -SX.vec (setV "q" (setV "x" ρ x) q) (B.kFun m kord) m e' else 0 := by simp
    rw [key]
    refine HasDerivAt.fun_sum fun e' _ => ?_
    by_cases he : e' = e
    · subst he
      rw [if_pos rfl, Base.eval_k hB hE]
      have h1 : HasDerivAt (fun t => x e' - t) (-1) (q (Fin.castLE (hE.le hB) e')) := (hasDerivAt_id _).const_sub _
      have h2 := (Spec.hasDerivAt_springEnergy (fun k => parV ρ B.parK (e' * kord + k)) kord _).comp _ h1
      rw [mul_neg, mul_one] at h2
      have e1 : (fun t => Spec.springEnergy (fun k => parV ρ B.parK (e' * kord + k)) kord
          (deflection hB hE (Function.update q (Fin.castLE (hE.le hB) e') t) x e')) =
          Spec.springEnergy (fun k => parV ρ B.parK (e' * kord + k)) kord ∘ fun t => x e' - t := by
        funext t; simp [deflection]
      rw [e1]; exact h2
    · rw [if_neg he]
      have hne : Fin.castLE (hE.le hB) e' ≠ Fin.castLE (hE.le hB) e := fun h => he (Fin.castLE_injective _ h)
      have e1 : (fun t => Spec.springEnergy (fun k => parV ρ B.parK (e' * kord + k)) kord
          (deflection hB hE (Function.update q (Fin.castLE (hE.le hB) e) t) x e')) =
          fun _ => Spec.springEnergy (fun k => parV ρ B.parK (e' * kord + k)) kord (deflection hB hE q x e') := by
        funext t; simp [deflection, Function.update_of_ne hne]
      rw [e1]; exact hasDerivAt_const _ _

/-- C20: the coupling damping is odd in the relative velocity. -/
theorem C20_d_odd (hB : B.WF) (hE : B.ElasticWF m kord dord dmord) (ρ : Var → ℝ) (dq dq' : Fin B.n → ℝ) (dx dx' : Fin m → ℝ)
    (h : ∀ e, deflection hB hE dq' dx' e = -deflection hB hE dq dx e) :
    SX.vec (setV "dq" (setV "dx" ρ dx') dq') (B.dFun m dord) m =
      -SX.vec (setV "dq" (setV "dx" ρ dx) dq) (B.dFun m dord) m := by
  ext e
  have h' : dx' e - dq' (Fin.castLE (hE.le hB) e) = -(dx e - dq (Fin.castLE (hE.le hB) e)) := h e
  rw [Pi.neg_apply, Base.eval_d hB hE, Base.eval_d hB hE, h', Spec.friction_neg]

/-- C20: the coupling damping dissipates the relative motion. -/
theorem C20_d_dissipative (hB : B.WF) (hE : B.ElasticWF m kord dord dmord) (ρ : Var → ℝ)
    (hc : ∀ k < m * dord, 0 ≤ parV ρ B.parD k) (dq : Fin B.n → ℝ) (dx : Fin m → ℝ) :
    0 ≤ deflection hB hE dq dx ⬝ᵥ SX.vec (setV "dq" (setV "dx" ρ dx) dq) (B.dFun m dord) m := by
  refine Finset.sum_nonneg fun e _ => ?_
  rw [Base.eval_d hB hE]
  exact Spec.friction_dissipative (fun k hk => hc _ (Base.coef_lt e.2 hk)) _

/-- C20: the motor friction is odd. -/
theorem C20_dm_odd (hE : B.ElasticWF m kord dord dmord) (ρ : Var → ℝ) (dx : Fin m → ℝ) :
    SX.vec (setV "dx" ρ (-dx)) (B.dmFun m dmord) m = -SX.vec (setV "dx" ρ dx) (B.dmFun m dmord) m := by
  ext e
  rw [Pi.neg_apply, Base.eval_dm hE, Base.eval_dm hE, Pi.neg_apply, Spec.friction_neg]

/-- C20: the motor friction is dissipative. -/
theorem C20_dm_dissipative (hE : B.ElasticWF m kord dord dmord) (ρ : Var → ℝ)
    (hc : ∀ k < m * dmord, 0 ≤ parV ρ B.parDm k) (dx : Fin m → ℝ) :
    0 ≤ dx ⬝ᵥ SX.vec (setV "dx" ρ dx) (B.dmFun m dmord) m := by
  refine Finset.sum_nonneg fun e _ => ?_
  rw [Base.eval_dm hE]
  exact Spec.friction_dissipative (fun k hk => hc _ (Base.coef_lt e.2 hk)) _

/-- Spring with coefficients 3 (symbolic) and 0.5 (numeric): torque at deflection 2 is `3·2 + 0.5·8`. -/
example : SX.vec (setV "q" (setV "x" (fun _ => 3) ![5]) ![3, 0, 0]) (Ex.B.kFun 1 2) 1 0 = 10 := by
  rw [Ex.k_val]
  norm_num [Spec.spring, parV, Ex.B, Ex.parX, Finset.sum_range_succ]

example (q : Fin 3 → ℝ) (x x' : Fin 1 → ℝ) (h : x 0 ≤ x' 0) :
    SX.vec (setV "q" (setV "x" (fun _ => 3) x) q) (Ex.B.kFun 1 2) 1 0 ≤
      SX.vec (setV "q" (setV "x" (fun _ => 3) x') q) (Ex.B.kFun 1 2) 1 0 := by
  refine C20_k_mono Ex.wf Ex.elasticB _ (fun k hk => ?_) q q x x' 0 (by simpa [deflection] using h)
  have : k = 0 ∨ k = 1 := by omega
  rcases this with rfl | rfl <;> norm_num [parV, Ex.B, Ex.parX]

example (q : Fin 3 → ℝ) (x : Fin 1 → ℝ) : 0 ≤ storedEnergy Ex.wf Ex.elasticB (fun _ => 3) q x := by
  refine (C20_k_gradient Ex.wf Ex.elasticB (fun _ => 3) q x).1 fun k hk => ?_
  have : k = 0 ∨ k = 1 := by omega
  rcases this with rfl | rfl <;> norm_num [parV, Ex.B, Ex.parX]

example : SX.vec (setV "q" (setV "x" (fun _ => 3) ![1]) ![3, 0, 0]) (Ex.B.kFun 1 2) 1 =
    -SX.vec (setV "q" (setV "x" (fun _ => 3) ![5]) ![3, 7, 0]) (Ex.B.kFun 1 2) 1 := by
  refine C20_k_odd Ex.wf Ex.elasticB _ (![3, 7, 0] : Fin 3 → ℝ) (![3, 0, 0] : Fin 3 → ℝ) _ _ fun e => ?_
  obtain rfl : e = 0 := Subsingleton.elim _ _
  change (1 : ℝ) - 3 = -(5 - 3); norm_num

example : SX.vec (setV "dq" (setV "dx" (fun _ => 3) ![1]) ![3, 0, 0]) (Ex.B.dFun 1 2) 1 =
    -SX.vec (setV "dq" (setV "dx" (fun _ => 3) ![5]) ![3, 7, 0]) (Ex.B.dFun 1 2) 1 := by
  refine C20_d_odd Ex.wf Ex.elasticB _ (![3, 7, 0] : Fin 3 → ℝ) (![3, 0, 0] : Fin 3 → ℝ) _ _ fun e => ?_
  obtain rfl : e = 0 := Subsingleton.elim _ _
  change (1 : ℝ) - 3 = -(5 - 3); norm_num

example (dq : Fin 3 → ℝ) (dx : Fin 1 → ℝ) :
    0 ≤ deflection Ex.wf Ex.elasticB dq dx ⬝ᵥ SX.vec (setV "dq" (setV "dx" (fun _ => 3) dx) dq) (Ex.B.dFun 1 2) 1 := by
  refine C20_d_dissipative Ex.wf Ex.elasticB _ (fun k hk => ?_) dq dx
  have : k = 0 ∨ k = 1 := by omega
  rcases this with rfl | rfl <;> norm_num [parV, Ex.B, Ex.parX]

example : SX.vec (setV "dx" (fun _ => 3) (-![1])) (Ex.B.dmFun 1 1) 1 = -SX.vec (setV "dx" (fun _ => 3) ![1]) (Ex.B.dmFun 1 1) 1 :=
  C20_dm_odd Ex.elasticB _ _

example (dx : Fin 1 → ℝ) : 0 ≤ dx ⬝ᵥ SX.vec (setV "dx" (fun _ => 3) dx) (Ex.B.dmFun 1 1) 1 := by
  refine C20_dm_dissipative Ex.elasticB _ (fun k hk => ?_) dx
  obtain rfl : k = 0 := by omega
  norm_num [parV, Ex.B, Ex.parX]

/-! ## C21

Full statement: for every well-formed robot, `k` and `d` satisfy `Spec.OwnLink`.  It is false of the code: the loop variable of
`compute_elastic` counts elastic joints and is used as a joint index. -/

/-- Spring coupling as a function of link and motor positions. -/
def springMap (B : Base) (m kord : ℕ) (ρ : Var → ℝ) (q : Fin B.n → ℝ) (x : Fin m → ℝ) : Fin m → ℝ :=
  SX.vec (setV "q" (setV "x" ρ x) q) (B.kFun m kord) m

/-- Damping coupling as a function of link and motor velocities. -/
def damperMap (B : Base) (m dord : ℕ) (ρ : Var → ℝ) (dq : Fin B.n → ℝ) (dx : Fin m → ℝ) : Fin m → ℝ :=
  SX.vec (setV "dq" (setV "dx" ρ dx) dq) (B.dFun m dord) m

/-- C21, part that holds: when the elastic joints are the first joints of the chain, entry `e` of `k` and `d` depends only on
the link of the `e`-th elastic joint and on motor `e`.  Missing from the full statement: chains in which a rigid joint precedes an
elastic one, where the statement is false (`C21_fails`). -/
theorem C21_own_link_partial (hB : B.WF) (hE : B.ElasticWF m kord dord dmord) (ρ : Var → ℝ)
    (hfirst : Spec.elasticJoints B.types = List.range m) :
    Spec.OwnLink B.types (springMap B m kord ρ) ∧ Spec.OwnLink B.types (damperMap B m dord ρ) := by
  have idx : ∀ (e : Fin m) (i : Fin B.n), (Spec.elasticJoints B.types)[(e : ℕ)]? = some (i : ℕ) →
      Fin.castLE (hE.le hB) e = i := by
    intro e i h
    rw [hfirst, List.getElem?_range e.2] at h
    exact Fin.ext (Option.some.inj h)
  constructor
  · intro e i h q q' x x' h1 h2
    rw [springMap, springMap, Base.eval_k hB hE, Base.eval_k hB hE, idx e i h, h1, h2]
  · intro e i h q q' x x' h1 h2
    rw [damperMap, damperMap, Base.eval_d hB hE, Base.eval_d hB hE, idx e i h, h1, h2]

/-- A chain with elastic joints first meets the hypothesis. -/
example : Spec.elasticJoints ["R_SEA", "P_SEA", "R"] = List.range 2 := by
  simp [Spec.elasticJoints, List.range, List.range.loop]

/-- C21 is false of the code: in the example robot (R, P, R_SEA) the only spring torque changes when only `q_0`, the position of a
rigid joint, changes; likewise for the damper. -/
theorem C21_fails : ∃ (B : Base) (m kord dord dmord : ℕ) (ρ : Var → ℝ), B.WF ∧ B.ElasticWF m kord dord dmord ∧
    ¬ Spec.OwnLink B.types (springMap B m kord ρ) ∧ ¬ Spec.OwnLink B.types (damperMap B m dord ρ) := by
  have hidx : (Spec.elasticJoints Ex.B.types)[((0 : Fin 1) : ℕ)]? = some ((2 : Fin 3) : ℕ) := by
    simp [Spec.elasticJoints, Ex.B, List.range, List.range.loop]
  refine ⟨Ex.B, 1, 2, 2, 1, fun _ => 1, Ex.wf, Ex.elasticB, fun h => ?_, fun h => ?_⟩
  · have h1 := h 0 (2 : Fin 3) hidx (![0, 0, 0] : Fin 3 → ℝ) (![1, 0, 0] : Fin 3 → ℝ) ![0] ![0] rfl rfl
    have h2 := (Ex.k_val (fun _ => 1) 0 0 0 0).symm.trans (Eq.trans h1 (Ex.k_val (fun _ => 1) 1 0 0 0))
    norm_num [Spec.spring, parV, Ex.B, Ex.parX, Finset.sum_range_succ] at h2
  · have h1 := h 0 (2 : Fin 3) hidx (![0, 0, 0] : Fin 3 → ℝ) (![1, 0, 0] : Fin 3 → ℝ) ![0] ![0] rfl rfl
    have h2 := (Ex.d_val (fun _ => 1) 0 0 0 0).symm.trans (Eq.trans h1 (Ex.d_val (fun _ => 1) 1 0 0 0))
    norm_num [Spec.friction, parV, Ex.B, Ex.parX, Finset.sum_range_succ] at h2

/-- A polynomial of odd powers that is constant has no coefficients. -/
theorem spring_const {c : ℕ → ℝ} {N : ℕ} (h : ∀ δ, Spec.spring c N δ = 0) : ∀ k < N, c k = 0 := by
  intro k hk
  have h0 : (∑ k ∈ Finset.range N, Polynomial.monomial (2 * k + 1) (c k) : Polynomial ℝ) = 0 := by
    refine Polynomial.funext fun x => ?_
    rw [Polynomial.eval_finsetSum, Polynomial.eval_zero, ← h x, Spec.spring]
    exact Finset.sum_congr rfl fun k _ => Polynomial.eval_monomial
  have h1 := congrArg (fun p => Polynomial.coeff p (2 * k + 1)) h0
  simp only [Polynomial.finsetSum_coeff, Polynomial.coeff_monomial, Polynomial.coeff_zero] at h1
  rw [Finset.sum_eq_single k (fun j _ hj => if_neg (by omega)) (fun h => absurd (Finset.mem_range.2 hk) h), if_pos rfl] at h1
  exact h1

theorem friction_const {c : ℕ → ℝ} {N : ℕ} (h : ∀ v, Spec.friction c N v = 0) : ∀ k < N, c k = 0 := by
  intro k hk
  have h0 : (∑ k ∈ Finset.range N, Polynomial.monomial (k + 1) (c k) : Polynomial ℝ) = 0 := by
    refine Polynomial.eq_of_infinite_eval_eq _ _ ((Set.Ici_infinite (0 : ℝ)).mono fun x hx => ?_)
    have hx : (0 : ℝ) ≤ x := hx
    show Polynomial.eval x _ = Polynomial.eval x 0
    rw [Polynomial.eval_finsetSum, Polynomial.eval_zero, ← h x, Spec.friction]
    exact Finset.sum_congr rfl fun k _ => by rw [Polynomial.eval_monomial, abs_of_nonneg hx, pow_succ]
  have h1 := congrArg (fun p => Polynomial.coeff p (k + 1)) h0
  simp only [Polynomial.finsetSum_coeff, Polynomial.coeff_monomial, Polynomial.coeff_zero] at h1
  rw [Finset.sum_eq_single k (fun j _ hj => if_neg (by omega)) (fun h => absurd (Finset.mem_range.2 hk) h), if_pos rfl] at h1
  exact h1

/-- The elastic joints are the first ones if each entry that is read is the one of its own joint. -/
theorem first_of_own {B : Base} {m : ℕ} (hm : m = (Spec.elasticJoints B.types).length) (h : ∀ e < m, (Spec.elasticJoints B.types)[e]? = some e) :
    Spec.elasticJoints B.types = List.range m := by
  refine List.ext_getElem? fun e => ?_
  rcases lt_or_ge e m with he | he
  · rw [h e he, List.getElem?_range he]
  · rw [List.getElem?_eq_none (by omega), List.getElem?_eq_none (by rw [List.length_range]; exact he)]

/-- If a coupling that reads link `e` for motor `e` depends on the own links only, the elastic joints come first, unless the coupling does nothing. -/
theorem ownLink_first {B : Base} {m : ℕ} (hB : B.WF) (hm : m = (Spec.elasticJoints B.types).length) (hmn : m ≤ B.n)
    {f : (Fin B.n → ℝ) → (Fin m → ℝ) → Fin m → ℝ} {g : Fin m → ℝ → ℝ} (hf : ∀ q x e, f q x e = g e (x e - q (Fin.castLE hmn e)))
    (h0 : ∀ e, g e 0 = 0) (hg : ∀ e, ∃ δ, g e δ ≠ 0) (h : Spec.OwnLink B.types f) : Spec.elasticJoints B.types = List.range m := by
  refine first_of_own hm fun e he => ?_
  have hl : e < (Spec.elasticJoints B.types).length := by omega
  have hi : (Spec.elasticJoints B.types)[e] < B.n := by
    have : (Spec.elasticJoints B.types)[e] ∈ Spec.elasticJoints B.types := List.getElem_mem hl
    have := List.mem_range.1 (List.mem_of_mem_filter this)
    rwa [hB.len] at this
  rw [List.getElem?_eq_getElem hl]
  by_contra hne
  have hne' : (Spec.elasticJoints B.types)[e] ≠ e := fun e' => hne (congrArg some e')
  obtain ⟨δ, hδ⟩ := hg ⟨e, he⟩
  have := h ⟨e, he⟩ ⟨_, hi⟩ (List.getElem?_eq_getElem hl) 0 (Function.update 0 (Fin.castLE hmn ⟨e, he⟩) (-δ)) 0 0
    (by rw [Function.update_of_ne]; exact fun e' => hne' (congrArg Fin.val e')) rfl
  rw [hf, hf, Function.update_self, Pi.zero_apply, Pi.zero_apply, sub_zero, h0, zero_sub, neg_neg] at this
  exact hδ this.symm

/-- C21: the spring torques, and the damping torques, act between each motor and its own link exactly when the elastic joints are the first ones of the
chain; each spring, and each damper, is supposed to have some coefficient. -/
theorem C21_iff (hB : B.WF) (hE : B.ElasticWF m kord dord dmord) (ρ : Var → ℝ) :
    ((∀ e < m, ∃ k < kord, parV ρ B.parK (e * kord + k) ≠ 0) →
      (Spec.OwnLink B.types (springMap B m kord ρ) ↔ Spec.elasticJoints B.types = List.range m)) ∧
    ((∀ e < m, ∃ k < dord, parV ρ B.parD (e * dord + k) ≠ 0) →
      (Spec.OwnLink B.types (damperMap B m dord ρ) ↔ Spec.elasticJoints B.types = List.range m)) := by
  refine ⟨fun hk => ⟨fun h => ?_, fun h => (C21_own_link_partial hB hE ρ h).1⟩, fun hk => ⟨fun h => ?_, fun h => (C21_own_link_partial hB hE ρ h).2⟩⟩
  · refine ownLink_first hB hE.m_eq (hE.le hB) (g := fun e δ => Spec.spring (fun k => parV ρ B.parK (e * kord + k)) kord δ)
      (fun q x e => Base.eval_k hB hE ρ q x e) (fun e => ?_) (fun e => ?_) h
    · exact Finset.sum_eq_zero fun k _ => by rw [zero_pow (by omega), mul_zero]
    · obtain ⟨k, hk1, hk2⟩ := hk e e.2
      by_contra hn
      push Not at hn
      exact hk2 (spring_const hn k hk1)
  · refine ownLink_first hB hE.m_eq (hE.le hB) (g := fun e v => Spec.friction (fun k => parV ρ B.parD (e * dord + k)) dord v)
      (fun q x e => Base.eval_d hB hE ρ q x e) (fun e => ?_) (fun e => ?_) h
    · exact Finset.sum_eq_zero fun k _ => by rw [mul_zero, mul_zero]
    · obtain ⟨k, hk1, hk2⟩ := hk e e.2
      by_contra hn
      push Not at hn
      exact hk2 (friction_const hn k hk1)

/-- The springs and dampers of the example robot have coefficients. -/
example : (∀ e < 1, ∃ k < 2, parV (fun _ => 1) Ex.B.parK (e * 2 + k) ≠ 0) ∧ ∀ e < 1, ∃ k < 2, parV (fun _ => 1) Ex.B.parD (e * 2 + k) ≠ 0 := by
  refine ⟨fun e he => ⟨0, by decide, ?_⟩, fun e he => ⟨0, by decide, ?_⟩⟩ <;> obtain rfl := Nat.lt_one_iff.1 he <;> norm_num [parV, Ex.B, Ex.parX]

end

end Thunder
