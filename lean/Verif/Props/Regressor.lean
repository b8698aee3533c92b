import Verif.Lemmas.Regressor
import Verif.Props.Examples

/-!
# Inertial regressors: C22, C23

`ρ` assigns a real to every symbol, so `q`, `dq`, `dqr`, `ddqr`, gravity and the symbolic parameters are arbitrary.
-/

open scoped Classical
open Matrix

namespace Thunder

variable [Fl] {B : Base}

/-- C23: `reg_M · REG(par_DYN) = M · ddqr`. -/
theorem C23_M (hB : B.WF) (hU : B.UnitAngles) (ρ : Var → ℝ) :
    SX.val ρ B.regM B.n (10 * B.n) *ᵥ (fun k => Spec.reg (B.dynV ρ) k) =
      SX.val ρ B.M B.n B.n *ᵥ fun j : Fin B.n => ρ ⟨"ddqr", j⟩ := by
  ext a
  rw [Base.regM, Base.stack_mulVec, Base.val_M_lin ρ hB hU, Matrix.sum_mulVec, Finset.sum_apply]
  refine Finset.sum_congr rfl fun i _ => ?_
  rw [Matrix.sum_mulVec, Finset.sum_apply]
  refine Finset.sum_congr rfl fun l hl => ?_
  rw [Base.regMi_e ρ hB i a (Finset.mem_range.mp hl), Matrix.smul_mulVec, Pi.smul_apply, smul_eq_mul, mul_comm]

/-- C23: `reg_C · REG(par_DYN) = C · dqr`. -/
theorem C23_C (hB : B.WF) (hU : B.UnitAngles) (ρ : Var → ℝ) :
    SX.val ρ B.regC B.n (10 * B.n) *ᵥ (fun k => Spec.reg (B.dynV ρ) k) =
      SX.val ρ B.C B.n B.n *ᵥ fun j : Fin B.n => ρ ⟨"dqr", j⟩ := by
  ext a
  rw [Base.regC, Base.stack_mulVec, Base.val_C_lin ρ hB hU, Matrix.sum_mulVec, Finset.sum_apply]
  refine Finset.sum_congr rfl fun i _ => ?_
  rw [Matrix.sum_mulVec, Finset.sum_apply]
  refine Finset.sum_congr rfl fun l hl => ?_
  rw [Base.regCi_e ρ hB i a (Finset.mem_range.mp hl), Matrix.smul_mulVec, Pi.smul_apply, smul_eq_mul, mul_comm]

/-- C23: `reg_G · REG(par_DYN) = G`. -/
theorem C23_G (hB : B.WF) (hU : B.UnitAngles) (ρ : Var → ℝ) :
    SX.val ρ B.regG B.n (10 * B.n) *ᵥ (fun k => Spec.reg (B.dynV ρ) k) = SX.vec ρ B.G B.n := by
  ext a
  rw [Base.regG, Base.stack_mulVec, Base.g_rows_G ρ hB.g.rows, Finset.sum_apply]
  exact Finset.sum_congr rfl fun i hi => Base.regGi_sum ρ hB hU (Finset.mem_range.mp hi) a

/-- C23: `Yr = reg_M + reg_C + reg_G`. -/
theorem C23_split (hB : B.WF) (ρ : Var → ℝ) : SX.val ρ B.Yr B.n (10 * B.n) =
    SX.val ρ B.regM B.n (10 * B.n) + SX.val ρ B.regC B.n (10 * B.n) + SX.val ρ B.regG B.n (10 * B.n) := by
  ext a c
  have hc : (c : ℕ) < Base.nPar * B.n := c.2
  have hl : (c : ℕ) % 10 < 10 := Nat.mod_lt _ (by decide)
  simp only [Matrix.add_apply, SX.val_apply, Base.Yr, Base.regM, Base.regC, Base.regG, Base.stack, hc, if_true]
  generalize (c : ℕ) / Base.nPar = i
  change Expr.eval ρ ((B.Yri i).e a (c % 10)) = Expr.eval ρ ((B.regMi i).e a (c % 10)) +
    Expr.eval ρ ((B.regCi i).e a (c % 10)) + Expr.eval ρ ((B.regGi i).e a (c % 10))
  generalize (c : ℕ) % 10 = l at hl
  have h1 := Base.ddqr_cols hB
  have h2 := Base.dqr_cols hB
  have h3 := Base.g_cols hB
  have hz : (B.Z1 i).cols = 3 := by change 3 * B.g.cols = 3; rw [h3]
  rw [Base.Yri, Base.regMi, Base.regCi, Base.regGi, Base.hcat3_e (A₁ := B.Y0 i) h1 rfl, Base.hcat3_e (A₁ := B.dX0 i) h1 rfl,
    Base.hcat3_e (A₁ := SX.neg (B.W0 i)) h2 rfl, Base.hcat3_e (A₁ := B.Z0 i) h3 hz]
  split_ifs
  · simp [Base.Y0, SX.add, SX.sub, SX.neg, sub_eq_add_neg]
  · simp [Base.Y1, SX.add, SX.sub, SX.neg, sub_eq_add_neg]
  · simp [Base.Y2, SX.sub, SX.neg, SX.zeros, sub_eq_add_neg]

/-- C22: `Yr · REG(par_DYN) = M · ddqr + C · dqr + G`. -/
theorem C22_identity (hB : B.WF) (hU : B.UnitAngles) (ρ : Var → ℝ) :
    SX.val ρ B.Yr B.n (10 * B.n) *ᵥ (fun k => Spec.reg (B.dynV ρ) k) =
      SX.val ρ B.M B.n B.n *ᵥ (fun j : Fin B.n => ρ ⟨"ddqr", j⟩) + SX.val ρ B.C B.n B.n *ᵥ (fun j : Fin B.n => ρ ⟨"dqr", j⟩) +
        SX.vec ρ B.G B.n := by
  rw [C23_split hB, Matrix.add_mulVec, Matrix.add_mulVec, C23_M hB hU, C23_C hB hU, C23_G hB hU]

/-- The hypotheses hold for the three-joint example robot (`Ex.B.n = 3`). -/
example (ρ : Var → ℝ) : SX.val ρ (@Base.Yr Ex.fl Ex.B) Ex.B.n (10 * Ex.B.n) *ᵥ (fun k => Spec.reg (Ex.B.dynV ρ) k) =
    SX.val ρ (@Base.M Ex.fl Ex.B) Ex.B.n Ex.B.n *ᵥ (fun j : Fin Ex.B.n => ρ ⟨"ddqr", j⟩) +
      SX.val ρ (@Base.C Ex.fl Ex.B) Ex.B.n Ex.B.n *ᵥ (fun j : Fin Ex.B.n => ρ ⟨"dqr", j⟩) +
      SX.vec ρ (@Base.G Ex.fl Ex.B) Ex.B.n := @C22_identity Ex.fl _ Ex.wf Ex.unit ρ
example (ρ : Var → ℝ) : SX.val ρ (@Base.regM Ex.fl Ex.B) Ex.B.n (10 * Ex.B.n) *ᵥ (fun k => Spec.reg (Ex.B.dynV ρ) k) =
    SX.val ρ (@Base.M Ex.fl Ex.B) Ex.B.n Ex.B.n *ᵥ fun j : Fin Ex.B.n => ρ ⟨"ddqr", j⟩ := @C23_M Ex.fl _ Ex.wf Ex.unit ρ
/-- The barycentric parameters of a concrete link: mass 2, centre of mass (1,0,0), unit tensor. -/
example : (fun k : Fin 10 => Spec.reg (fun k => [2, 1, 0, 0, 1, 0, 0, 1, 0, 1].getD k 0) k) = ![2, 2, 0, 0, 1, 0, 0, 3, 0, 3] := by
  ext k; fin_cases k <;> simp [Spec.reg, Spec.linPar, Spec.originInertia, Spec.mass, Spec.com, Spec.inertia, hat,
    Matrix.mul_apply, Fin.sum_univ_three] <;> norm_num

end Thunder
