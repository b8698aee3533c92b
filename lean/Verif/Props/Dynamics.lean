import Verif.Lemmas.Lagrange
import Verif.Props.Examples

/-!
# Properties C10–C18: dynamics
-/

open scoped Classical
open Matrix

namespace Thunder

noncomputable section

variable [Fl] {B : Base}

/-! ## C10, C11 -/

/-- C10: the mass matrix is symmetric.  No hypothesis on the angles or on the inertial parameters. -/
theorem C10_symm (ρ : Var → ℝ) : (SX.val ρ B.M B.n B.n)ᵀ = SX.val ρ B.M B.n B.n := Base.val_M_symm ρ

example (ρ : Var → ℝ) : SX.val ρ (@Base.M Ex.fl Ex.B) 3 3 0 2 = SX.val ρ (@Base.M Ex.fl Ex.B) 3 3 2 0 :=
  congrFun (congrFun (@C10_symm Ex.fl Ex.B ρ) (2 : Fin 3)) (0 : Fin 3)

/-- C11: the mass matrix is positive semidefinite when the links are physical. -/
theorem C11_psd (ρ : Var → ℝ) (hp : Spec.Physical (B.dynV ρ) B.n) (v : Fin B.n → ℝ) :
    0 ≤ v ⬝ᵥ SX.val ρ B.M B.n B.n *ᵥ v := by
  rw [Base.quad_M]
  refine Finset.sum_nonneg fun i hi => ?_
  obtain ⟨h1, h2⟩ := hp i (Finset.mem_range.mp hi)
  rw [Base.quad_Mi, Base.massV_eq, Base.inertiaV_eq]
  refine add_nonneg (mul_nonneg h1 ?_) (h2 _)
  exact Finset.sum_nonneg fun a _ => mul_self_nonneg _

/-- The hypothesis of C11 is met by the example robot when the symbolic link 2 has unit inertia. -/
example : Spec.Physical (Ex.B.dynV fun v => if v.idx = 10 ∨ v.idx = 14 ∨ v.idx = 17 ∨ v.idx = 19 then 1 else 0) 3 := by
  intro i hi
  have : i = 0 ∨ i = 1 ∨ i = 2 := by omega
  rcases this with rfl | rfl | rfl <;>
    refine ⟨by norm_num [Spec.mass, Base.dynV, Ex.B, Ex.parX, Ex.dynL], fun x => ?_⟩ <;>
    simp [Spec.inertia, Base.dynV, Ex.B, Ex.parX, Ex.dynL, dotProduct, mulVec, Fin.sum_univ_three] <;>
    nlinarith [mul_self_nonneg (x 0), mul_self_nonneg (x 1), mul_self_nonneg (x 2), mul_self_nonneg (x 0 + x 1)]

/-! ## C12 -/

/-- C12: along every trajectory the links have velocities (centre of mass and angular), and for these velocities `½ dqᵀ M dq` is
the sum of the kinetic energies of the links. -/
theorem C12_kinetic (hB : B.WF) (hU : B.UnitAngles) (ρ : Var → ℝ) {q : ℝ → Fin B.n → ℝ} {dq : Fin B.n → ℝ} {t : ℝ}
    (hq : ∀ i, HasDerivAt (fun s => q s i) (dq i) t) :
    (∃ v ω : ℕ → Fin 3 → ℝ, ∀ i < B.n, Spec.IsTwist (fun s => SX.val (setV "q" ρ (q s)) (B.T0 (i + 1)) 4 4)
      (Spec.com (B.dynV ρ) i) t (v i) (ω i)) ∧
    ∀ v ω : ℕ → Fin 3 → ℝ, (∀ i < B.n, Spec.IsTwist (fun s => SX.val (setV "q" ρ (q s)) (B.T0 (i + 1)) 4 4)
      (Spec.com (B.dynV ρ) i) t (v i) (ω i)) →
      1 / 2 * (dq ⬝ᵥ SX.val (setV "q" ρ (q t)) B.M B.n B.n *ᵥ dq) =
        ∑ i ∈ Finset.range B.n, Spec.kinetic (Spec.mass (B.dynV ρ) i) (Spec.inertia (B.dynV ρ) i)
          (Spec.rot (SX.val (setV "q" ρ (q t)) (B.T0 (i + 1)) 4 4)) (v i) (ω i) := by
  refine ⟨⟨fun i => B.jv (setV "q" ρ (q t)) i *ᵥ dq, fun i => B.jw (setV "q" ρ (q t)) i *ᵥ dq,
    fun i hi => Base.isTwist ρ hB hU hq hi⟩, fun v ω h => ?_⟩
  rw [Base.quad_M, Finset.mul_sum]
  refine Finset.sum_congr rfl fun i hi => ?_
  obtain ⟨h1, h2⟩ := Base.twist_unique ρ hB hU (Finset.mem_range.mp hi) (h i (Finset.mem_range.mp hi))
    (Base.isTwist ρ hB hU hq (Finset.mem_range.mp hi))
  rw [h1, h2]
  exact (Base.kinetic_link ρ hB _ _).symm

example (ρ : Var → ℝ) (t : ℝ) : ∃ v ω : ℕ → Fin 3 → ℝ, ∀ i < 3,
    Spec.IsTwist (fun s => SX.val (setV "q" ρ (fun i : Fin 3 => s ^ (i + 1 : ℕ))) (@Base.T0 Ex.fl Ex.B (i + 1)) 4 4)
      (Spec.com (Ex.B.dynV ρ) i) t (v i) (ω i) :=
  (@C12_kinetic Ex.fl _ Ex.wf Ex.unit ρ (fun s i => s ^ (i + 1 : ℕ)) _ t (fun i => hasDerivAt_pow (i + 1 : ℕ) t)).1

/-- C12 in closed form: the kinetic energy computed from the link frames alone. -/
theorem C12_energy (hB : B.WF) (hU : B.UnitAngles) (ρ : Var → ℝ) (q dq : Fin B.n → ℝ) :
    Spec.kineticEnergy (B.dynV ρ) B.n (fun i q => SX.val (setV "q" ρ q) (B.T0 (i + 1)) 4 4) q dq =
      1 / 2 * (dq ⬝ᵥ SX.val (setV "q" ρ q) B.M B.n B.n *ᵥ dq) := Base.kineticEnergy_eq ρ hB hU q dq

example (ρ : Var → ℝ) (q : Fin 3 → ℝ) :
    Spec.kineticEnergy (Ex.B.dynV ρ) 3 (fun i q => SX.val (setV "q" ρ q) (@Base.T0 Ex.fl Ex.B (i + 1)) 4 4) q ![1, 2, 3] =
      1 / 2 * (![1, 2, 3] ⬝ᵥ SX.val (setV "q" ρ q) (@Base.M Ex.fl Ex.B) 3 3 *ᵥ ![1, 2, 3]) :=
  @C12_energy Ex.fl _ Ex.wf Ex.unit ρ q _

/-! ## C13 – C15 -/

/-- C13: `C` is the Christoffel matrix of `M`. -/
theorem C13_christoffel (hB : B.WF) (ρ : Var → ℝ) (q : Fin B.n → ℝ) :
    (∀ h j k : Fin B.n, DifferentiableAt ℝ (fun x => SX.val (setV "q" ρ (Function.update q k x)) B.M B.n B.n h j) (q k)) ∧
    ∀ h j : Fin B.n, SX.val (setV "q" ρ q) B.C B.n B.n h j = 1 / 2 * ∑ k : Fin B.n,
      (deriv (fun x => SX.val (setV "q" ρ (Function.update q k x)) B.M B.n B.n h j) (q k) +
       deriv (fun x => SX.val (setV "q" ρ (Function.update q j x)) B.M B.n B.n h k) (q j) -
       deriv (fun x => SX.val (setV "q" ρ (Function.update q h x)) B.M B.n B.n j k) (q h)) * ρ ⟨"dq", k⟩ := by
  have hd := fun h j k : Fin B.n => SX.hasDerivAt_val_update (name := "q") (fun S => Base.smooth_M (S := S) hB) ρ q k
    B.n B.n h j
  refine ⟨fun h j k => (hd h j k).differentiableAt, fun h j => ?_⟩
  rw [Base.val_C _ hB, ← Finset.sum_add_distrib, ← Finset.sum_sub_distrib, Finset.sum_div, Finset.mul_sum]
  refine Finset.sum_congr rfl fun k _ => ?_
  rw [(hd h j k).deriv, (hd h k j).deriv, (hd j k h).deriv, setV_ne (by simp)]
  simp only [pd, SX.dval_apply]
  ring

example (ρ : Var → ℝ) (q : Fin 3 → ℝ) : SX.val (setV "q" ρ q) (@Base.C Ex.fl Ex.B) 3 3 0 1 = 1 / 2 * ∑ k : Fin 3,
      (deriv (fun x => SX.val (setV "q" ρ (Function.update q k x)) (@Base.M Ex.fl Ex.B) 3 3 0 1) (q k) +
       deriv (fun x => SX.val (setV "q" ρ (Function.update q 1 x)) (@Base.M Ex.fl Ex.B) 3 3 0 k) (q 1) -
       deriv (fun x => SX.val (setV "q" ρ (Function.update q 0 x)) (@Base.M Ex.fl Ex.B) 3 3 1 k) (q 0)) * ρ ⟨"dq", k⟩ :=
  (@C13_christoffel Ex.fl _ Ex.wf ρ q).2 (0 : Fin 3) (1 : Fin 3)

/-- C14: `C` and `C_std` are the same matrix; no factor is missing. -/
theorem C14_std (hB : B.WF) (ρ : Var → ℝ) : SX.val ρ B.Cstd B.n B.n = SX.val ρ B.C B.n B.n := by
  ext a b; exact Base.val_Cstd ρ hB

example (ρ : Var → ℝ) : SX.val ρ (@Base.Cstd Ex.fl Ex.B) 3 3 = SX.val ρ (@Base.C Ex.fl Ex.B) 3 3 := @C14_std Ex.fl _ Ex.wf ρ

/-- C15: `M_dot - 2 C` is skew-symmetric. -/
theorem C15_skew (hB : B.WF) (ρ : Var → ℝ) :
    (SX.val ρ B.Mdot B.n B.n - (2 : ℝ) • SX.val ρ B.C B.n B.n)ᵀ = -(SX.val ρ B.Mdot B.n B.n - (2 : ℝ) • SX.val ρ B.C B.n B.n) := by
  ext a b
  simp only [Matrix.transpose_apply, Matrix.sub_apply, Matrix.smul_apply, Matrix.neg_apply, Base.val_C ρ hB, Base.val_Mdot ρ hB,
    smul_eq_mul, Base.pd_M_symm ρ (fun S => Base.smooth_M (S := S) hB) b.2 a.2]
  ring

example (ρ : Var → ℝ) : (SX.val ρ (@Base.Mdot Ex.fl Ex.B) 3 3 - (2 : ℝ) • SX.val ρ (@Base.C Ex.fl Ex.B) 3 3)ᵀ =
    -(SX.val ρ (@Base.Mdot Ex.fl Ex.B) 3 3 - (2 : ℝ) • SX.val ρ (@Base.C Ex.fl Ex.B) 3 3) := @C15_skew Ex.fl _ Ex.wf ρ

/-- C15: consequently `vᵀ (M_dot - 2 C) v = 0` (in particular for `v = dq`). -/
theorem C15_passive (hB : B.WF) (ρ : Var → ℝ) (v : Fin B.n → ℝ) :
    v ⬝ᵥ (SX.val ρ B.Mdot B.n B.n - (2 : ℝ) • SX.val ρ B.C B.n B.n) *ᵥ v = 0 := by
  have h := C15_skew hB ρ
  set A := SX.val ρ B.Mdot B.n B.n - (2 : ℝ) • SX.val ρ B.C B.n B.n
  have h1 : v ⬝ᵥ A *ᵥ v = v ⬝ᵥ Aᵀ *ᵥ v := by
    rw [Matrix.dotProduct_mulVec, dotProduct_comm, ← Matrix.mulVec_transpose]
  rw [h, Matrix.neg_mulVec, dotProduct_neg] at h1
  linarith

example (ρ : Var → ℝ) : (fun i : Fin 3 => ρ ⟨"dq", i⟩) ⬝ᵥ
    (SX.val ρ (@Base.Mdot Ex.fl Ex.B) 3 3 - (2 : ℝ) • SX.val ρ (@Base.C Ex.fl Ex.B) 3 3) *ᵥ (fun i : Fin 3 => ρ ⟨"dq", i⟩) = 0 :=
  @C15_passive Ex.fl _ Ex.wf ρ _

/-! ## C16 -/

/-- C16: `G` is the gradient of the gravitational potential energy of the links. -/
theorem C16_gradient (hB : B.WF) (hU : B.UnitAngles) (ρ : Var → ℝ) (q : Fin B.n → ℝ) (j : Fin B.n) :
    HasDerivAt (fun x => Spec.potential (B.dynV ρ) (SX.vec ρ B.g 3) B.n
        fun i => SX.val (setV "q" ρ (Function.update q j x)) (B.T0 (i + 1)) 4 4)
      (SX.vec (setV "q" ρ q) B.G B.n j) (q j) := by
  have h := Base.hasDerivAt_pot ρ hB hU (hasDerivAt_update q j)
  rw [single_one_dotProduct, Function.update_eq_self] at h
  exact h

example (ρ : Var → ℝ) (q : Fin 3 → ℝ) :
    HasDerivAt (fun x => Spec.potential (Ex.B.dynV ρ) (SX.vec ρ Ex.B.g 3) 3
        fun i => SX.val (setV "q" ρ (Function.update q 1 x)) (@Base.T0 Ex.fl Ex.B (i + 1)) 4 4)
      (SX.vec (setV "q" ρ q) (@Base.G Ex.fl Ex.B) 3 1) (q 1) := @C16_gradient Ex.fl _ Ex.wf Ex.unit ρ q (1 : Fin 3)

/-! ## C17 -/

/-- C17: along every twice differentiable trajectory, `M ddq + C dq + G = d/dt ∂L/∂dq - ∂L/∂q`.  `P s k` and `Q k` are the partial
derivatives of the Lagrangian along the trajectory. -/
theorem C17_lagrange (hB : B.WF) (hU : B.UnitAngles) (ρ : Var → ℝ) {q dq : ℝ → Fin B.n → ℝ} {ddq : Fin B.n → ℝ} {t : ℝ}
    (hq : ∀ s i, HasDerivAt (fun s => q s i) (dq s i) s) (hdq : ∀ i, HasDerivAt (fun s => dq s i) (ddq i) t) :
    let L := Spec.lagrangian (B.dynV ρ) (SX.vec ρ B.g 3) B.n fun i q => SX.val (setV "q" ρ q) (B.T0 (i + 1)) 4 4
    let σ := setV "q" (setV "dq" ρ (dq t)) (q t)
    ∃ (P : ℝ → Fin B.n → ℝ) (Q : Fin B.n → ℝ),
      (∀ s k, HasDerivAt (fun x => L (q s) (Function.update (dq s) k x)) (P s k) (dq s k)) ∧
      (∀ k, HasDerivAt (fun x => L (Function.update (q t) k x) (dq t)) (Q k) (q t k)) ∧
      ∀ k, HasDerivAt (fun s => P s k)
        ((SX.val σ B.M B.n B.n *ᵥ ddq + SX.val σ B.C B.n B.n *ᵥ dq t + SX.vec σ B.G B.n) k + Q k) t := by
  intro L σ
  have hL : ∀ q v, L q v = 1 / 2 * (v ⬝ᵥ SX.val (setV "q" ρ q) B.M B.n B.n *ᵥ v) - B.pot ρ q := fun q v => by
    rw [← Base.kineticEnergy_eq ρ hB hU]; rfl
  have hσM : ∀ x : Fin B.n → ℝ, SX.val (setV "q" (setV "dq" ρ (dq t)) x) B.M B.n B.n = SX.val (setV "q" ρ x) B.M B.n B.n :=
    fun x => Base.val_M_dq hB ρ x _
  have hσdq : (fun i : Fin B.n => σ ⟨"dq", i⟩) = dq t := by
    funext i
    simp only [σ]
    rw [setV_ne (by simp), setV_self]
  have hM := fun (x : Fin B.n → ℝ) (k a b : Fin B.n) => SX.hasDerivAt_val_update (name := "q")
    (fun S => Base.smooth_M (S := S) hB) (setV "dq" ρ (dq t)) x k B.n B.n a b
  simp only [hσM] at hM
  refine ⟨fun s => SX.val (setV "q" ρ (q s)) B.M B.n B.n *ᵥ dq s,
    fun k => 1 / 2 * (∑ a : Fin B.n, ∑ b : Fin B.n, dq t a * pd σ B.M a b k * dq t b) - SX.vec σ B.G B.n k, ?_, ?_, ?_⟩
  · intro s k
    simp only [hL]
    have h := hasDerivAt_quad (A := fun _ : ℝ => SX.val (setV "q" ρ (q s)) B.M B.n B.n) (A' := 0)
      (v := fun x => Function.update (dq s) k x) (t := dq s k) (fun a b => hasDerivAt_const _ _) (hasDerivAt_update (dq s) k)
      (Base.val_M_symm _)
    rw [Function.update_eq_self, single_one_dotProduct, Matrix.zero_mulVec, dotProduct_zero, mul_zero, add_zero] at h
    exact h.sub_const _
  · intro k
    simp only [hL]
    have h := hasDerivAt_quad (A := fun x : ℝ => SX.val (setV "q" ρ (Function.update (q t) k x)) B.M B.n B.n)
      (v := fun _ => dq t) (t := q t k) (fun a b => hM (q t) k a b) (fun a => hasDerivAt_const _ _) (Base.val_M_symm _)
    have hp := Base.hasDerivAt_pot ρ hB hU (hasDerivAt_update (q t) k)
    rw [single_one_dotProduct, Function.update_eq_self] at hp
    have hG : SX.vec (setV "q" ρ (q t)) B.G B.n k = SX.vec σ B.G B.n k := congrFun (Base.vec_G_dq hB ρ (q t) (dq t)).symm k
    rw [hG] at hp
    have h2 := h.sub hp
    have e : (0 : Fin B.n → ℝ) ⬝ᵥ SX.val (setV "q" ρ (Function.update (q t) k (q t k))) B.M B.n B.n *ᵥ dq t = 0 :=
      zero_dotProduct _
    rw [quad_expand] at h2
    have h3 : ∀ c d : ℝ, HasDerivAt (fun x => 1 / 2 * (dq t ⬝ᵥ SX.val (setV "q" ρ (Function.update (q t) k x)) B.M B.n B.n *ᵥ dq t)
      - B.pot ρ (Function.update (q t) k x)) c (q t k) → c = d →
      HasDerivAt (fun x => 1 / 2 * (dq t ⬝ᵥ SX.val (setV "q" ρ (Function.update (q t) k x)) B.M B.n B.n *ᵥ dq t)
      - B.pot ρ (Function.update (q t) k x)) d (q t k) := fun c d h e => e ▸ h
    refine h3 _ _ h2 ?_
    rw [show (fun a : Fin B.n => (0 : ℝ)) = 0 from rfl, e, zero_add]
    rfl
  · intro k
    have hMt : ∀ a b : Fin B.n, HasDerivAt (fun s => SX.val (setV "q" ρ (q s)) B.M B.n B.n a b) (SX.val σ B.Mdot B.n B.n a b) t :=
      fun a b => Base.hasDerivAt_jtimes₁ hB (fun S => Base.smooth_M (S := S) hB) (Base.over_M_q hB) ρ (hq t) B.n B.n a b
    have h : HasDerivAt (fun s => ∑ b, SX.val (setV "q" ρ (q s)) B.M B.n B.n k b * dq s b)
        (∑ b, (SX.val σ B.Mdot B.n B.n k b * dq t b + SX.val (setV "q" ρ (q t)) B.M B.n B.n k b * ddq b)) t :=
      HasDerivAt.fun_sum fun b _ => (hMt k b).mul (hdq b)
    have hc := Base.coriolis_identity hB σ k
    rw [hσdq] at hc
    have hσdq' : ∀ i : Fin B.n, σ ⟨"dq", i⟩ = dq t i := fun i => congrFun hσdq i
    simp only [hσdq'] at hc
    have e : ∑ b, (SX.val σ B.Mdot B.n B.n k b * dq t b + SX.val (setV "q" ρ (q t)) B.M B.n B.n k b * ddq b) =
        (SX.val σ B.M B.n B.n *ᵥ ddq + SX.val σ B.C B.n B.n *ᵥ dq t + SX.vec σ B.G B.n) k +
        (1 / 2 * (∑ a : Fin B.n, ∑ b : Fin B.n, dq t a * pd σ B.M a b k * dq t b) - SX.vec σ B.G B.n k) := by
      rw [← hc, Pi.add_apply, Pi.add_apply, hσM, Finset.sum_add_distrib]
      simp only [mulVec, dotProduct]
      ring
    rw [e] at h
    exact h

/-- C17: the power `dqᵀ (M ddq + C dq + G)` is the rate of change of the mechanical energy (kinetic plus potential, both computed from
the link frames). -/
theorem C17_energy (hB : B.WF) (hU : B.UnitAngles) (ρ : Var → ℝ) {q dq : ℝ → Fin B.n → ℝ} {ddq : Fin B.n → ℝ} {t : ℝ}
    (hq : ∀ i, HasDerivAt (fun s => q s i) (dq t i) t) (hdq : ∀ i, HasDerivAt (fun s => dq s i) (ddq i) t) :
    let T := fun (i : ℕ) (q : Fin B.n → ℝ) => SX.val (setV "q" ρ q) (B.T0 (i + 1)) 4 4
    let σ := setV "q" (setV "dq" ρ (dq t)) (q t)
    HasDerivAt (fun s => Spec.kineticEnergy (B.dynV ρ) B.n T (q s) (dq s) +
        Spec.potential (B.dynV ρ) (SX.vec ρ B.g 3) B.n fun i => T i (q s))
      (dq t ⬝ᵥ (SX.val σ B.M B.n B.n *ᵥ ddq + SX.val σ B.C B.n B.n *ᵥ dq t + SX.vec σ B.G B.n)) t := by
  intro T σ
  have hK : ∀ q v, Spec.kineticEnergy (B.dynV ρ) B.n T q v = 1 / 2 * (v ⬝ᵥ SX.val (setV "q" ρ q) B.M B.n B.n *ᵥ v) :=
    Base.kineticEnergy_eq ρ hB hU
  simp only [hK]
  have hMt : ∀ a b : Fin B.n, HasDerivAt (fun s => SX.val (setV "q" ρ (q s)) B.M B.n B.n a b) (SX.val σ B.Mdot B.n B.n a b) t :=
    fun a b => Base.hasDerivAt_jtimes₁ hB (fun S => Base.smooth_M (S := S) hB) (Base.over_M_q hB) ρ hq B.n B.n a b
  have h1 := hasDerivAt_quad hMt hdq (Base.val_M_symm _)
  have h2 := Base.hasDerivAt_pot ρ hB hU hq
  have h3 := h1.add h2
  have e : ddq ⬝ᵥ SX.val (setV "q" ρ (q t)) B.M B.n B.n *ᵥ dq t + 1 / 2 * (dq t ⬝ᵥ SX.val σ B.Mdot B.n B.n *ᵥ dq t) +
      dq t ⬝ᵥ SX.vec (setV "q" ρ (q t)) B.G B.n =
      dq t ⬝ᵥ (SX.val σ B.M B.n B.n *ᵥ ddq + SX.val σ B.C B.n B.n *ᵥ dq t + SX.vec σ B.G B.n) := by
    have hp := C15_passive hB σ (dq t)
    rw [Matrix.sub_mulVec, Matrix.smul_mulVec, dotProduct_sub, dotProduct_smul, smul_eq_mul] at hp
    have hM : SX.val σ B.M B.n B.n = SX.val (setV "q" ρ (q t)) B.M B.n B.n := Base.val_M_dq hB ρ _ _
    have hG : SX.vec σ B.G B.n = SX.vec (setV "q" ρ (q t)) B.G B.n := Base.vec_G_dq hB ρ _ _
    have hs : ddq ⬝ᵥ SX.val (setV "q" ρ (q t)) B.M B.n B.n *ᵥ dq t = dq t ⬝ᵥ SX.val (setV "q" ρ (q t)) B.M B.n B.n *ᵥ ddq := by
      rw [Matrix.dotProduct_mulVec, dotProduct_comm, ← Matrix.mulVec_transpose, Base.val_M_symm]
    rw [dotProduct_add, dotProduct_add, hM, hG, hs]
    linarith
  rw [← e]
  exact h3

example (ρ : Var → ℝ) (t : ℝ) :
    let T := fun (i : ℕ) (q : Fin 3 → ℝ) => SX.val (setV "q" ρ q) (@Base.T0 Ex.fl Ex.B (i + 1)) 4 4
    let σ := setV "q" (setV "dq" ρ (fun i : Fin 3 => ((i + 1 : ℕ) : ℝ) * t ^ (i : ℕ))) (fun i : Fin 3 => t ^ (i + 1 : ℕ))
    HasDerivAt (fun s => Spec.kineticEnergy (Ex.B.dynV ρ) 3 T (fun i : Fin 3 => s ^ (i + 1 : ℕ))
          (fun i : Fin 3 => ((i + 1 : ℕ) : ℝ) * s ^ (i : ℕ)) +
        Spec.potential (Ex.B.dynV ρ) (SX.vec ρ Ex.B.g 3) 3 fun i => T i (fun i : Fin 3 => s ^ (i + 1 : ℕ)))
      ((fun i : Fin 3 => ((i + 1 : ℕ) : ℝ) * t ^ (i : ℕ)) ⬝ᵥ
        (SX.val σ (@Base.M Ex.fl Ex.B) 3 3 *ᵥ (fun i : Fin 3 => ((i + 1 : ℕ) : ℝ) * ((i : ℕ) * t ^ (i - 1 : ℕ))) +
          SX.val σ (@Base.C Ex.fl Ex.B) 3 3 *ᵥ (fun i : Fin 3 => ((i + 1 : ℕ) : ℝ) * t ^ (i : ℕ)) +
          SX.vec σ (@Base.G Ex.fl Ex.B) 3)) t :=
  @C17_energy Ex.fl _ Ex.wf Ex.unit ρ (fun s i => s ^ (i + 1 : ℕ)) (fun s i => ((i + 1 : ℕ) : ℝ) * s ^ (i : ℕ)) _ t
    (fun i => hasDerivAt_pow (i + 1 : ℕ) t) (fun i => (hasDerivAt_pow (i : ℕ) t).const_mul _)

/-- The hypotheses of C17 (Euler–Lagrange form) on the same trajectory. -/
example (ρ : Var → ℝ) (t : ℝ) :=
  @C17_lagrange Ex.fl _ Ex.wf Ex.unit ρ (fun s i => s ^ (i + 1 : ℕ)) (fun s i => ((i + 1 : ℕ) : ℝ) * s ^ (i : ℕ)) _ t
    (fun s i => hasDerivAt_pow (i + 1 : ℕ) s) (fun i => (hasDerivAt_pow (i : ℕ) t).const_mul _)

/-! ## C18 -/

/-- C18: `M_dot`, `G_dot`, `C_dot` are the time derivatives of `M`, `G`, `C` along every trajectory. -/
theorem C18_dot (hB : B.WF) (ρ : Var → ℝ) {q dq : ℝ → Fin B.n → ℝ} {ddq : Fin B.n → ℝ} {t : ℝ}
    (hq : ∀ i, HasDerivAt (fun s => q s i) (dq t i) t) (hdq : ∀ i, HasDerivAt (fun s => dq s i) (ddq i) t) (a b : Fin B.n) :
    HasDerivAt (fun s => SX.val (setV "q" ρ (q s)) B.M B.n B.n a b)
      (SX.val (setV "q" (setV "dq" ρ (dq t)) (q t)) B.Mdot B.n B.n a b) t ∧
    HasDerivAt (fun s => SX.val (setV "q" ρ (q s)) B.G B.n 1 a 0)
      (SX.val (setV "q" (setV "dq" ρ (dq t)) (q t)) B.Gdot B.n 1 a 0) t ∧
    HasDerivAt (fun s => SX.val (setV "q" (setV "dq" ρ (dq s)) (q s)) B.C B.n B.n a b)
      (SX.val (setV "q" (setV "dq" (setV "ddq" ρ ddq) (dq t)) (q t)) B.Cdot B.n B.n a b) t :=
  ⟨Base.hasDerivAt_jtimes₁ hB (fun S => Base.smooth_M (S := S) hB) (Base.over_M_q hB) ρ hq B.n B.n a b,
   Base.hasDerivAt_jtimes₁ hB (fun S => Base.smooth_G (S := S) hB) (Base.over_G_q hB) ρ hq B.n 1 a 0,
   Base.hasDerivAt_jtimes₂ hB (fun S => Base.smooth_C (S := S) hB)
    (Base.over_C hB (l := ["q", "dq", "DHtable", "world2L0", "par_DYN"]) (by decide) (by decide) (by decide) (by decide)
      (by decide)) ρ hq hdq B.n B.n a b⟩

/-- C18: `M_ddot`, `G_ddot`, `C_ddot` are the second time derivatives. -/
theorem C18_ddot (hB : B.WF) (ρ : Var → ℝ) {q dq ddq : ℝ → Fin B.n → ℝ} {d3q : Fin B.n → ℝ} {t : ℝ}
    (hq : ∀ s i, HasDerivAt (fun s => q s i) (dq s i) s) (hdq : ∀ s i, HasDerivAt (fun s => dq s i) (ddq s i) s)
    (hddq : ∀ i, HasDerivAt (fun s => ddq s i) (d3q i) t) (a b : Fin B.n) :
    HasDerivAt (deriv fun s => SX.val (setV "q" ρ (q s)) B.M B.n B.n a b)
      (SX.val (setV "q" (setV "dq" (setV "ddq" ρ (ddq t)) (dq t)) (q t)) B.Mddot B.n B.n a b) t ∧
    HasDerivAt (deriv fun s => SX.val (setV "q" ρ (q s)) B.G B.n 1 a 0)
      (SX.val (setV "q" (setV "dq" (setV "ddq" ρ (ddq t)) (dq t)) (q t)) B.Gddot B.n 1 a 0) t ∧
    HasDerivAt (deriv fun s => SX.val (setV "q" (setV "dq" ρ (dq s)) (q s)) B.C B.n B.n a b)
      (SX.val (setV "q" (setV "dq" (setV "ddq" (setV "d3q" ρ d3q) (ddq t)) (dq t)) (q t)) B.Cddot B.n B.n a b) t := by
  have h := fun s => C18_dot hB ρ (hq s) (hdq s) a b
  rw [show (deriv fun s => SX.val (setV "q" ρ (q s)) B.M B.n B.n a b) = _ from funext fun s => (h s).1.deriv,
    show (deriv fun s => SX.val (setV "q" ρ (q s)) B.G B.n 1 a 0) = _ from funext fun s => (h s).2.1.deriv,
    show (deriv fun s => SX.val (setV "q" (setV "dq" ρ (dq s)) (q s)) B.C B.n B.n a b) = _ from funext fun s => (h s).2.2.deriv]
  refine ⟨?_, ?_, ?_⟩
  · exact Base.hasDerivAt_jtimes₂ hB (fun S => Base.smooth_Mdot (S := S) hB)
      ((Base.over_M hB (l := ["q", "dq", "DHtable", "world2L0", "par_DYN"]) (by decide) (by decide) (by decide) (by decide)).jtimes
        (Base.over_dq hB (by decide)) _) ρ (hq t) (hdq t) B.n B.n a b
  · exact Base.hasDerivAt_jtimes₂ hB (fun S => Base.smooth_Gdot (S := S) hB)
      ((Base.over_G hB (l := ["q", "dq", "DHtable", "world2L0", "par_DYN", "gravity"]) (by decide) (by decide) (by decide)
        (by decide) (by decide)).jtimes (Base.over_dq hB (by decide)) _) ρ (hq t) (hdq t) B.n 1 a 0
  · exact Base.hasDerivAt_jtimes₃ hB (fun S => Base.smooth_Cdot (S := S) hB)
      (Base.over_Cdot hB (l := ["q", "dq", "ddq", "DHtable", "world2L0", "par_DYN"]) (by decide) (by decide) (by decide) (by decide)
        (by decide) (by decide)) ρ (hq t) (hdq t) hddq B.n B.n a b

/-- The hypotheses of C18 on a polynomial trajectory of the example robot. -/
example (ρ : Var → ℝ) (t : ℝ) :=
  @C18_ddot Ex.fl _ Ex.wf ρ (fun s i => s ^ (i + 1 : ℕ)) (fun s i => ((i + 1 : ℕ) : ℝ) * s ^ (i : ℕ))
    (fun s i => ((i + 1 : ℕ) : ℝ) * ((i : ℕ) * s ^ (i - 1 : ℕ))) _ t
    (fun s i => hasDerivAt_pow (i + 1 : ℕ) s) (fun s i => (hasDerivAt_pow (i : ℕ) s).const_mul _)
    (fun i => ((hasDerivAt_pow (i - 1 : ℕ) t).const_mul _).const_mul _)

end

end Thunder
