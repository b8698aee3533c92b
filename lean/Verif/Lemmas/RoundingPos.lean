import Verif.Lemmas.RoundingRun
import Verif.Lemmas.Posdef
import Mathlib.Analysis.SpecialFunctions.Trigonometric.Basic
import Mathlib.Topology.MetricSpace.ProperSpace
import Mathlib.Analysis.Normed.Module.FiniteDimension
import Mathlib.Topology.Order.Compact
import Mathlib.Topology.Instances.Matrix

/-!
# Positive definite matrices and small errors
-/

open scoped Classical
open Matrix

namespace Thunder

noncomputable section

/-- The value depends continuously on the symbols. -/
theorem Expr.Tame.continuous {S : Set Var} {e : Expr} (h : Expr.Tame S e) : Continuous fun ρ : Var → ℝ => Expr.eval ρ e := by
  induction h with
  | const c => exact continuous_const
  | var v => exact continuous_apply v
  | add _ _ ha hb => exact ha.add hb
  | sub _ _ ha hb => exact ha.sub hb
  | mul _ _ ha hb => exact ha.mul hb
  | div _ _ hm h ha hb => exact ha.div hb fun ρ e => absurd (h ρ trivial) (by rw [e, abs_zero]; exact not_le.2 hm)
  | neg _ ha => exact ha.neg
  | sin _ ha => exact Real.continuous_sin.comp ha
  | cos _ ha => exact Real.continuous_cos.comp ha
  | sqrt _ _ ha => exact Real.continuous_sqrt.comp (ha.pow 2)
  | pow _ n ha => exact ha.pow n
  | @inv n A m _ h i j ih =>
    have hA : Continuous fun ρ => (Matrix.of fun k l => Expr.eval ρ (A k l) : Matrix (Fin n) (Fin n) ℝ) := continuous_matrix fun k l => ih k l
    simp only [Expr.eval, Matrix.inv_def, Matrix.smul_apply, smul_eq_mul, Ring.inverse_eq_inv']
    refine (hA.matrix_det.inv₀ fun ρ e => ?_).mul (hA.matrix_adjugate.matrix_elem i j)
    obtain ⟨Y, hY, -⟩ := h ρ trivial
    have := congrArg Matrix.det hY
    rw [Matrix.det_mul, e, zero_mul, Matrix.det_one] at this
    exact zero_ne_one this

theorem continuous_setV (nm : String) (ρ : Var → ℝ) {n : ℕ} : Continuous fun q : Fin n → ℝ => setV nm ρ q := by
  refine continuous_pi fun v => ?_
  unfold setV
  split_ifs
  · exact continuous_apply _
  · exact continuous_const

/-- The change of a quadratic form. -/
theorem quadratic_near {n : ℕ} {A B : Matrix (Fin n) (Fin n) ℝ} {ε : ℝ} (h : ∀ i j, |B i j - A i j| ≤ ε) {v : Fin n → ℝ} (hv : ‖v‖ = 1) :
    v ⬝ᵥ A *ᵥ v - (n : ℝ) * (n * ε) ≤ v ⬝ᵥ B *ᵥ v := by
  have h1 : ∀ i, |v i| ≤ 1 := fun i => hv ▸ (Real.norm_eq_abs (v i) ▸ norm_le_pi_norm v i)
  have h2 : |v ⬝ᵥ (B - A) *ᵥ v| ≤ (n : ℝ) * (n * ε) := by
    calc |v ⬝ᵥ (B - A) *ᵥ v| ≤ ∑ i, |v i * ((B - A) *ᵥ v) i| := Finset.abs_sum_le_sum_abs _ _
      _ ≤ ∑ _i : Fin n, (n * ε) := by
        refine Finset.sum_le_sum fun i _ => ?_
        rw [abs_mul]
        have h3 : |((B - A) *ᵥ v) i| ≤ n * ε := by
          calc |((B - A) *ᵥ v) i| = |∑ j, (B - A) i j * v j| := rfl
            _ ≤ ∑ j, |(B - A) i j * v j| := Finset.abs_sum_le_sum_abs _ _
            _ ≤ ∑ _j : Fin n, ε := by
              refine Finset.sum_le_sum fun j _ => ?_
              rw [abs_mul]
              calc |(B - A) i j| * |v j| ≤ ε * 1 := mul_le_mul (h i j) (h1 j) (abs_nonneg _) ((abs_nonneg _).trans (h i j))
                _ = ε := mul_one _
            _ = n * ε := by simp
        calc |v i| * |((B - A) *ᵥ v) i| ≤ 1 * (n * ε) := mul_le_mul (h1 i) h3 (abs_nonneg _) zero_le_one
          _ = n * ε := one_mul _
      _ = (n : ℝ) * (n * ε) := by simp
  rw [sub_mulVec, dotProduct_sub] at h2
  linarith [(abs_le.1 h2).1]

/-- Matrices that depend continuously on bounded parameters and are positive definite remain so under small errors. -/
theorem posdef_near {k n : ℕ} {A : (Fin k → ℝ) → Matrix (Fin n) (Fin n) ℝ} (hc : ∀ i j, Continuous fun q => A q i j)
    (hp : ∀ q v, v ≠ 0 → 0 < v ⬝ᵥ A q *ᵥ v) (b : ℝ) :
    ∃ ε, 0 < ε ∧ ∀ q, (∀ i, |q i| ≤ b) → ∀ B : Matrix (Fin n) (Fin n) ℝ, (∀ i j, |B i j - A q i j| ≤ ε) → ∀ v, v ≠ 0 → 0 < v ⬝ᵥ B *ᵥ v := by
  have hf : Continuous fun p : (Fin k → ℝ) × (Fin n → ℝ) => p.2 ⬝ᵥ A p.1 *ᵥ p.2 := by
    unfold dotProduct
    refine continuous_finsetSum _ fun i _ => ((continuous_apply i).comp continuous_snd).mul ?_
    show Continuous fun p : (Fin k → ℝ) × (Fin n → ℝ) => ∑ j, A p.1 i j * p.2 j
    exact continuous_finsetSum _ fun j _ => ((hc i j).comp continuous_fst).mul ((continuous_apply j).comp continuous_snd)
  have hK : IsCompact ((Set.univ.pi fun _ : Fin k => Set.Icc (-b) b) ×ˢ Metric.sphere (0 : Fin n → ℝ) 1) :=
    (isCompact_univ_pi fun _ => isCompact_Icc).prod (isCompact_sphere _ _)
  have hμ : ∃ μ : ℝ, 0 < μ ∧ ∀ q, (∀ i, |q i| ≤ b) → ∀ v : Fin n → ℝ, ‖v‖ = 1 → μ ≤ v ⬝ᵥ A q *ᵥ v := by
    by_cases hne : ((Set.univ.pi fun _ : Fin k => Set.Icc (-b) b) ×ˢ Metric.sphere (0 : Fin n → ℝ) 1).Nonempty
    · obtain ⟨p, hp0, hm⟩ := hK.exists_isMinOn hne hf.continuousOn
      refine ⟨p.2 ⬝ᵥ A p.1 *ᵥ p.2, hp _ _ fun e => ?_, fun q hq v hv => ?_⟩
      · have := mem_sphere_zero_iff_norm.1 hp0.2
        rw [e, norm_zero] at this
        exact zero_ne_one this
      · exact hm (show (q, v) ∈ _ from ⟨fun i _ => abs_le.1 (hq i), mem_sphere_zero_iff_norm.2 hv⟩)
    · exact ⟨1, one_pos, fun q hq v hv => absurd ⟨(q, v), fun i _ => abs_le.1 (hq i), mem_sphere_zero_iff_norm.2 hv⟩ hne⟩
  obtain ⟨μ, h0, hμ⟩ := hμ
  have hn : (0 : ℝ) < n * n + 1 := by positivity
  refine ⟨μ / (n * n + 1), div_pos h0 hn, fun q hq B hB v hv => ?_⟩
  have hv0 : 0 < ‖v‖ := norm_pos_iff.2 hv
  have h1 : ‖(‖v‖⁻¹ • v : Fin n → ℝ)‖ = 1 := by rw [norm_smul, norm_inv, norm_norm, inv_mul_cancel₀ hv0.ne']
  have h2 := quadratic_near hB h1
  have h3 := hμ q hq _ h1
  have h4 : (n : ℝ) * (n * (μ / (n * n + 1))) < μ := by
    rw [← mul_assoc, mul_div_assoc', div_lt_iff₀ hn]
    nlinarith
  have h5 : 0 < (‖v‖⁻¹ • v) ⬝ᵥ B *ᵥ (‖v‖⁻¹ • v) := by linarith
  rw [mulVec_smul, smul_dotProduct, dotProduct_smul, smul_eq_mul, smul_eq_mul, ← mul_assoc] at h5
  exact pos_of_mul_pos_right h5 (mul_nonneg (inv_nonneg.2 hv0.le) (inv_nonneg.2 hv0.le))

theorem det_of_posdef {n : ℕ} {A : Matrix (Fin n) (Fin n) ℝ} (h : ∀ v, v ≠ 0 → 0 < v ⬝ᵥ A *ᵥ v) : A.det ≠ 0 := by
  intro h0
  obtain ⟨v, hv, e⟩ := Matrix.exists_mulVec_eq_zero_iff.2 h0
  have := h v hv
  rw [e, dotProduct_zero] at this
  exact lt_irrefl _ this

open Spec Robot SX

/-- The mass matrix depends continuously on the position. -/
theorem continuous_massOf [Fl] {c : Conf} (hn : 0 < c.n) (ht : Typed c) (hU : UnitNumeric c) (s : State c) (i j : Fin c.n) :
    Continuous fun q => massOf c q i j := by
  obtain ⟨S, hS⟩ := Fn.tame (f := .M) hn ht
  have h : Continuous fun q : Fin c.n → ℝ => Expr.eval (setV "q" (env c s) q) ((base c).M.e i j) := (hS i j).continuous.comp (continuous_setV "q" _)
  have e : (fun q => massOf c q i j) = fun q : Fin c.n → ℝ => Expr.eval (setV "q" (env c s) q) ((base c).M.e i j) := by
    funext q
    rw [← M_q hn ht hU s q]
    rfl
  rw [e]
  exact h

end

end Thunder
