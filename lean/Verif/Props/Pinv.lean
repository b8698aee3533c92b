import Verif.Lemmas.Time
import Verif.Lib.LeastSquares
import Verif.Props.Examples
import Mathlib.LinearAlgebra.FiniteDimensional.Lemmas

/-!
# Property C08: damped pseudo-inverse
-/

open scoped Classical
open Matrix

namespace Thunder

noncomputable section

variable [Fl] {B : Base}

/-- C08: at every configuration `J Jᵀ + 0.02 I` is invertible, and `J_ee_pinv v` is the unique minimiser of
`|J x − v|² + 0.02 |x|²`. -/
theorem C08_pinv (ρ : Var → ℝ) :
    IsUnit (SX.val ρ B.Jee 6 B.n * (SX.val ρ B.Jee 6 B.n)ᵀ + (0.02 : ℝ) • (1 : Matrix (Fin 6) (Fin 6) ℝ)).det ∧
    ∀ (v : Fin 6 → ℝ) (x : Fin B.n → ℝ), x ≠ SX.val ρ B.JeePinv B.n 6 *ᵥ v →
      (SX.val ρ B.Jee 6 B.n *ᵥ (SX.val ρ B.JeePinv B.n 6 *ᵥ v) - v) ⬝ᵥ
          (SX.val ρ B.Jee 6 B.n *ᵥ (SX.val ρ B.JeePinv B.n 6 *ᵥ v) - v) +
        0.02 * ((SX.val ρ B.JeePinv B.n 6 *ᵥ v) ⬝ᵥ (SX.val ρ B.JeePinv B.n 6 *ᵥ v)) <
      (SX.val ρ B.Jee 6 B.n *ᵥ x - v) ⬝ᵥ (SX.val ρ B.Jee 6 B.n *ᵥ x - v) + 0.02 * (x ⬝ᵥ x) := by
  have hμ : (0 : ℝ) < 0.02 := by norm_num
  refine ⟨isUnit_damped _ hμ, fun v x hx => ?_⟩
  have hrows : B.Jee.rows = 6 := by
    simp only [Base.Jee, Base.J, SX.vcat, Base.Jv, if_true]; rfl
  have hcols : B.Jee.cols = B.n := by
    simp only [Base.Jee, Base.J, SX.vcat, Base.Jv, if_true]; rfl
  have hp : SX.val ρ B.JeePinv B.n 6 *ᵥ v = dampedSol (SX.val ρ B.Jee 6 B.n) 0.02 v := by
    have h1 : SX.val ρ B.JeePinv B.n 6 = (SX.val ρ B.Jee 6 B.n)ᵀ * SX.val ρ B.invJn 6 6 := by
      rw [Base.JeePinv, SX.val_mtimes ρ _ _ B.n 6 6 (by exact hrows), SX.val_transp]
    have h2 : SX.val ρ B.invJn 6 6 = (SX.val ρ B.Jee 6 B.n * (SX.val ρ B.Jee 6 B.n)ᵀ + (0.02 : ℝ) • 1)⁻¹ := by
      rw [Base.invJn, SX.val_inv ρ _ 6 (by exact hrows), SX.val_add, SX.val_mtimes ρ _ _ 6 B.n 6 hcols, SX.val_transp,
        SX.val_scale, SX.val_eye, Expr.eval_const]
    rw [h1, h2]; rfl
  rw [hp] at hx ⊢
  exact dampedSol_min _ hμ v x hx

example (ρ : Var → ℝ) (v : Fin 6 → ℝ) (x : Fin 3 → ℝ) (hx : x ≠ SX.val ρ (@Base.JeePinv Ex.fl Ex.B) 3 6 *ᵥ v) :
    dampedCost (SX.val ρ (@Base.Jee Ex.fl Ex.B) 6 3) 0.02 v (SX.val ρ (@Base.JeePinv Ex.fl Ex.B) 3 6 *ᵥ v) <
      dampedCost (SX.val ρ (@Base.Jee Ex.fl Ex.B) 6 3) 0.02 v x := (@C08_pinv Ex.fl Ex.B ρ).2 v x hx

/-- The damping is needed: with 3 joints and 6 task rows `J Jᵀ` is singular at every configuration. -/
example (ρ : Var → ℝ) : (SX.val ρ (@Base.Jee Ex.fl Ex.B) 6 3 * (SX.val ρ (@Base.Jee Ex.fl Ex.B) 6 3)ᵀ).det = 0 := by
  have h := LinearMap.ker_ne_bot_of_finrank_lt (f := Matrix.mulVecLin (SX.val ρ (@Base.Jee Ex.fl Ex.B) 6 3)ᵀ) (by simp)
  obtain ⟨v, hv, hne⟩ := Submodule.exists_mem_ne_zero_of_ne_bot h
  refine Matrix.exists_mulVec_eq_zero_iff.mp ⟨v, hne, ?_⟩
  rw [← Matrix.mulVec_mulVec]
  have : (SX.val ρ (@Base.Jee Ex.fl Ex.B) 6 3)ᵀ *ᵥ v = 0 := hv
  rw [this, Matrix.mulVec_zero]

end

end Thunder
