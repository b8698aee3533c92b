import Verif.Lemmas.Dynamics
import Verif.Spec.Dynamics
import Mathlib.Analysis.Calculus.Deriv.Mul
import Mathlib.Analysis.Calculus.Deriv.Add

/-!
# Kinetic and potential energy
-/

set_option linter.unusedSectionVars false

open scoped Classical
open Matrix

namespace Thunder

noncomputable section

theorem vee_hat (w : Fin 3 → ℝ) : Spec.vee (hat w) = w := by
  ext i; fin_cases i <;> simp [Spec.vee, hat]

theorem hat_mul_rot_inj {R : Matrix (Fin 3) (Fin 3) ℝ} (h : IsRot R) {v w : Fin 3 → ℝ} (e : hat v * R = hat w * R) : v = w := by
  have h2 : hat v = hat w := by
    have := congrArg (· * Rᵀ) e
    simpa only [Matrix.mul_assoc, h.orth', Matrix.mul_one] using this
  rw [← vee_hat v, h2, vee_hat]

namespace Base

variable [Fl] {B : Base} (ρ : Var → ℝ)

/-- Inertial parameter vector seen by the generated functions (numeric entries included). -/
def dynV (B : Base) (ρ : Var → ℝ) (k : ℕ) : ℝ := Expr.eval ρ (B.dyn.e k 0)

/-- Frame of link `i` as a function of the joint coordinates. -/
def frameT (B : Base) (ρ : Var → ℝ) (i : ℕ) (q : Fin B.n → ℝ) : Matrix (Fin 4) (Fin 4) ℝ :=
  SX.val (setV "q" ρ q) (B.T0 (i + 1)) 4 4

theorem massV_eq (i : ℕ) : B.massV ρ i = Spec.mass (B.dynV ρ) i := by
  simp [massV, mass, Spec.mass, dynV, nPar, mul_comm]
theorem comV_eq (i : ℕ) : B.comV ρ i = Spec.com (B.dynV ρ) i := by
  ext a; fin_cases a <;> simp [comV, com, col3, Spec.com, dynV, nPar, mul_comm]
theorem inertiaV_eq (i : ℕ) : B.inertiaV ρ i = Spec.inertia (B.dynV ρ) i := by
  ext a b; fin_cases a <;> fin_cases b <;> simp [inertiaV, inertia, mat33, Spec.inertia, dynV, nPar, mul_comm]

theorem spec_rot (i : ℕ) : Spec.rot (SX.val ρ (B.T0 i) 4 4) = B.rotV ρ i := by
  ext a b; rw [rotV, R0_eq, val_rotB_apply]; rfl
theorem spec_pos (i : ℕ) : Spec.pos (SX.val ρ (B.T0 i) 4 4) = B.posV ρ i := by
  ext a; simp [Spec.pos, posV, P0, SX.block]

variable (hB : B.WF)
include hB

theorem dynV_setV (q : Fin B.n → ℝ) : B.dynV (setV "q" ρ q) = B.dynV ρ := by
  funext k
  exact Expr.eval_congr fun v hv => setV_ne (by rw [(hB.dyn.over _ _ hv).1]; decide)

theorem gV_setV (q : Fin B.n → ℝ) : SX.vec (setV "q" ρ q) B.g 3 = SX.vec ρ B.g 3 := by
  funext k
  exact Expr.eval_congr fun v hv => setV_ne (by rw [(hB.g.over _ _ hv).1]; decide)

theorem spec_point (i : ℕ) (q : Fin B.n → ℝ) :
    Spec.point (B.frameT ρ i q) (Spec.com (B.dynV ρ) i) = SX.vec (setV "q" ρ q) (B.Ocm i) 3 := by
  rw [Spec.point, frameT, spec_rot, spec_pos, vec_Ocm, comV_eq, dynV_setV ρ hB]

omit hB in
theorem qdir_dirV (v : Fin B.n → ℝ) : QDir (dirV "q" v) := fun w hw => by rw [dirV, setV_ne hw]
omit hB in
theorem spv_dirV (v : Fin B.n → ℝ) : B.spv (dirV "q" v) = v := by
  funext i; simp [spv, sp, dirV]

/-- Twist of link `i` along a trajectory. -/
theorem isTwist (hU : B.UnitAngles) {q : ℝ → Fin B.n → ℝ} {v : Fin B.n → ℝ} {t : ℝ}
    (hq : ∀ i, HasDerivAt (fun s => q s i) (v i) t) {i : ℕ} (hi : i < B.n) :
    Spec.IsTwist (fun s => B.frameT ρ i (q s)) (Spec.com (B.dynV ρ) i) t (B.jv (setV "q" ρ (q t)) i *ᵥ v)
      (B.jw (setV "q" ρ (q t)) i *ᵥ v) where
  lin := by
    intro a
    have h := SX.hasDerivAt_val_curve (fun S => smooth_Ocm (S := S) hB i)
      (hasDerivAt_setV (name := "q") (hasDerivAt_fix ρ t) hq) 3 1 a 0
    simp only [spec_point ρ hB]
    have e := congrFun (dvec_Ocm (setV "q" ρ (q t)) (dirV "q" v) hB hU (qdir_dirV v) hi) a
    rw [spv_dirV] at e
    rw [← e]
    exact h
  ang := by
    intro a b
    have h := SX.hasDerivAt_val_curve (fun S => smooth_R0 (S := S) hB (i + 1))
      (hasDerivAt_setV (name := "q") (hasDerivAt_fix ρ t) hq) 3 3 a b
    have e := congrFun (congrFun (dval_R0_jw (setV "q" ρ (q t)) (dirV "q" v) hB hU (qdir_dirV v) hi) a) b
    rw [spv_dirV] at e
    simp only [frameT, spec_rot]
    rw [← e]
    exact h

theorem twist_unique (hU : B.UnitAngles) {q : ℝ → Fin B.n → ℝ} {t : ℝ} {i : ℕ} (hi : i < B.n) {v w v' w' : Fin 3 → ℝ}
    (h : Spec.IsTwist (fun s => B.frameT ρ i (q s)) (Spec.com (B.dynV ρ) i) t v w)
    (h' : Spec.IsTwist (fun s => B.frameT ρ i (q s)) (Spec.com (B.dynV ρ) i) t v' w') : v = v' ∧ w = w' := by
  refine ⟨funext fun a => (h.lin a).unique (h'.lin a), ?_⟩
  have hR : IsRot (Spec.rot (B.frameT ρ i (q t))) := by
    rw [frameT, spec_rot]
    exact isRot_R0 hB _ hU (by omega)
  refine hat_mul_rot_inj hR ?_
  ext a b
  exact (h.ang a b).unique (h'.ang a b)

theorem kinetic_link {i : ℕ} (q v : Fin B.n → ℝ) :
    Spec.kinetic (Spec.mass (B.dynV ρ) i) (Spec.inertia (B.dynV ρ) i) (Spec.rot (B.frameT ρ i q))
      (B.jv (setV "q" ρ q) i *ᵥ v) (B.jw (setV "q" ρ q) i *ᵥ v) =
    1 / 2 * (v ⬝ᵥ SX.val (setV "q" ρ q) (B.Mi i) B.n B.n *ᵥ v) := by
  rw [quad_Mi, Spec.kinetic, massV_eq, inertiaV_eq, dynV_setV ρ hB, frameT, spec_rot, ← Matrix.mulVec_mulVec,
    ← Matrix.mulVec_mulVec, Matrix.dotProduct_mulVec (B.jw _ i *ᵥ v), ← Matrix.mulVec_transpose]
  ring

theorem kineticEnergy_eq (hU : B.UnitAngles) (q v : Fin B.n → ℝ) :
    Spec.kineticEnergy (B.dynV ρ) B.n (B.frameT ρ) q v = 1 / 2 * (v ⬝ᵥ SX.val (setV "q" ρ q) B.M B.n B.n *ᵥ v) := by
  rw [quad_M, Finset.mul_sum, Spec.kineticEnergy]
  refine Finset.sum_congr rfl fun i hi => ?_
  have hi' : i < B.n := Finset.mem_range.mp hi
  have hline : ∀ k, HasDerivAt (fun s : ℝ => (q + s • v) k) (v k) 0 := fun k => by
    simpa using ((hasDerivAt_id (0 : ℝ)).mul_const (v k)).const_add (q k)
  have ht := isTwist ρ hB hU hline hi'
  have hR : IsRot (Spec.rot (B.frameT ρ i q)) := by
    rw [frameT, spec_rot]
    exact isRot_R0 hB _ hU (by omega)
  have e0 : q + (0 : ℝ) • v = q := by simp
  rw [e0] at ht
  have e1 : (fun a => deriv (fun s : ℝ => Spec.point (B.frameT ρ i (q + s • v)) (Spec.com (B.dynV ρ) i) a) 0) =
      B.jv (setV "q" ρ q) i *ᵥ v := funext fun a => (ht.lin a).deriv
  have e2 : (Matrix.of (fun a b => deriv (fun s : ℝ => Spec.rot (B.frameT ρ i (q + s • v)) a b) 0)) =
      hat (B.jw (setV "q" ρ q) i *ᵥ v) * Spec.rot (B.frameT ρ i q) := by
    ext a b
    rw [Matrix.of_apply, (ht.ang a b).deriv, e0]
  rw [e1, e2, Matrix.mul_assoc, hR.orth', Matrix.mul_one, vee_hat, kinetic_link ρ hB]

/-- Potential energy as a function of the joint coordinates. -/
def pot (B : Base) (ρ : Var → ℝ) (q : Fin B.n → ℝ) : ℝ :=
  Spec.potential (B.dynV ρ) (SX.vec ρ B.g 3) B.n fun i => B.frameT ρ i q

theorem hasDerivAt_pot (hU : B.UnitAngles) {q : ℝ → Fin B.n → ℝ} {v : Fin B.n → ℝ} {t : ℝ}
    (hq : ∀ i, HasDerivAt (fun s => q s i) (v i) t) :
    HasDerivAt (fun s => B.pot ρ (q s)) (v ⬝ᵥ SX.vec (setV "q" ρ (q t)) B.G B.n) t := by
  have hg : B.g.rows = 3 := hB.g.rows
  have e : v ⬝ᵥ SX.vec (setV "q" ρ (q t)) B.G B.n =
      -∑ i ∈ Finset.range B.n, Spec.mass (B.dynV ρ) i *
        (∑ a : Fin 3, SX.vec ρ B.g 3 a * (B.jv (setV "q" ρ (q t)) i *ᵥ v) a) := by
    rw [g_rows_G _ hg, dotProduct_sum, ← Finset.sum_neg_distrib]
    refine Finset.sum_congr rfl fun i _ => ?_
    rw [dotProduct_smul, Matrix.dotProduct_mulVec, Matrix.vecMul_transpose, gV_setV ρ hB, massV_eq, dynV_setV ρ hB,
      smul_eq_mul, neg_mul, dotProduct_comm]
    rfl
  rw [e]
  simp only [pot, Spec.potential, dotProduct]
  refine (HasDerivAt.fun_sum fun i hi => ?_).fun_neg
  refine (HasDerivAt.fun_sum fun a _ => ?_).const_mul _
  exact ((isTwist ρ hB hU hq (Finset.mem_range.mp hi)).lin a).const_mul _

end Base

end

end Thunder
