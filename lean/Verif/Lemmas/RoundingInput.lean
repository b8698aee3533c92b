import Verif.Lemmas.RoundingRun
import Verif.Lemmas.Substitute
import Verif.Spec.Measured

/-!
# Rounding errors with inputs that have errors

An error of an input is of the kind of the error of an operation: the inexact input is a possible result of adding a large number to the exact one and
subtracting it again.
-/

open scoped Classical

namespace Thunder

noncomputable section

open Spec Robot SX

namespace Expr

theorem near_exact {u z : ℝ} (hu : 0 ≤ u) : Near u z z := fun _ => by
  rw [sub_self, abs_zero]
  exact mul_nonneg hu (le_max_of_le_left (abs_nonneg z))

theorem near_mono {u u' z v : ℝ} (h0 : 0 ≤ u) (h : u ≤ u') (hv : Near u z v) : Near u' z v := fun h1 =>
  (hv ((mul_le_mul_of_nonneg_right h (abs_nonneg z)).trans h1)).trans
    (mul_le_mul h (max_le_max le_rfl h) (le_max_of_le_left (abs_nonneg z)) (h0.trans h))

theorem Rounded.mono {u u' : ℝ} {ρ : Var → ℝ} {e : Expr} {v : ℝ} (h0 : 0 ≤ u) (hu : u ≤ u') (h : Rounded u ρ e v) : Rounded u' ρ e v := by
  induction h with
  | const h => exact .const (near_mono h0 hu h)
  | var x => exact .var x
  | add _ _ h ia ib => exact .add ia ib (near_mono h0 hu h)
  | sub _ _ h ia ib => exact .sub ia ib (near_mono h0 hu h)
  | mul _ _ h ia ib => exact .mul ia ib (near_mono h0 hu h)
  | div _ _ h ia ib => exact .div ia ib (near_mono h0 hu h)
  | neg _ ia => exact .neg ia
  | sin _ h ia => exact .sin ia (near_mono h0 hu h)
  | cos _ h ia => exact .cos ia (near_mono h0 hu h)
  | sqrt _ h ia => exact .sqrt ia (near_mono h0 hu h)
  | pow _ h ia => exact .pow ia (near_mono h0 hu h)
  | inv _ h i ih =>
    refine .inv ih (fun B hB hd hx hs => ?_) i
    obtain ⟨E, hE, e⟩ := h B hB hd hx ((mul_le_mul_of_nonneg_right hu (by positivity)).trans hs)
    exact ⟨E, fun k l => (hE k l).trans (mul_le_mul_of_nonneg_right hu (by linarith)), e⟩

/-- The symbol plus `B` minus `B`. -/
def shaken (B : ℝ) (x : Var) : Expr := .sub (.add (.var x) (.const B)) (.const B)

theorem shaken_rounded {b u : ℝ} {ρ : Var → ℝ} {x : Var} {t : ℝ} (hu : 0 ≤ u) (hb : |ρ x| ≤ b) (ht : |t - ρ x| ≤ u) : Rounded u ρ (shaken (b + 1) x) t := by
  refine .sub (x := t + (b + 1)) (y := b + 1) (.add (.var x) (.const (near_exact hu)) fun _ => ?_) (.const (near_exact hu)) ?_
  · rw [show t + (b + 1) - (ρ x + (b + 1)) = t - ρ x by ring]
    refine ht.trans (le_mul_of_one_le_right hu (le_max_of_le_left ?_))
    rw [abs_of_nonneg] <;> linarith [(abs_le.1 hb).1]
  · rw [show t + (b + 1) - (b + 1) = t by ring]
    exact near_exact hu

theorem eval_shaken (B : ℝ) (ρ : Var → ℝ) (e : Expr) : eval ρ (e.subst (shaken B)) = eval ρ e := by
  rw [eval_subst]
  refine eval_congr fun v _ => ?_
  show ρ v + B - B = ρ v
  ring

end Expr

/-- The bound for expressions with inexact values of the symbols. -/
theorem tame_inputs {S : Set Var} {b : ℝ} (hb : 0 ≤ b) (l : List Expr) (h : ∀ e ∈ l, Expr.Tame S e) : ∃ K u₀, 0 ≤ K ∧ 0 < u₀ ∧
    ∀ e ∈ l, ∀ ρ ρ' : Var → ℝ, (∀ v ∈ e.fv, |ρ v| ≤ b) → ∀ u δ, 0 ≤ u → 0 ≤ δ → u + δ ≤ u₀ → (∀ v ∈ e.fv, |ρ' v - ρ v| ≤ δ) → ∀ v, e.Rounded u ρ' v →
      |v - e.eval ρ| ≤ K * (u + δ) := by
  obtain ⟨K, u₀, hK, hu, H⟩ := tame_all (P := fun _ => True) (S := ∅) hb (l.map (Expr.subst (Expr.shaken (b + 1)))) fun e he => by
    obtain ⟨e', he', rfl⟩ := List.mem_map.1 he
    exact Expr.TameOn.subst (h e' he') fun x _ => ((Expr.TameOn.var x).add (.const _)).sub (.const _)
  refine ⟨K, u₀, hK, hu, fun e he ρ ρ' hρ u δ h0 hδ h1 hd v hv => ?_⟩
  have hs := (hv.mono (u' := u + δ) h0 (by linarith)).subst (ρ := ρ) (σ := Expr.shaken (b + 1)) fun x hx =>
    Expr.shaken_rounded (by linarith) (hρ x hx) ((hd x hx).trans (by linarith))
  have := H _ (List.mem_map_of_mem he) ρ trivial (fun v hv => ?_) (u + δ) (by linarith) h1 v hs
  · rwa [Expr.eval_shaken] at this
  · rw [Expr.fv_subst] at hv
    obtain ⟨x, hx, hv⟩ := hv
    obtain rfl : v = x := by
      rcases hv with (hv | hv) | hv
      · exact hv
      · exact hv.elim
      · exact hv.elim
    exact hρ _ hx

/-- The values of the symbols. -/
theorem Spec.Measured.env {δ : ℝ} {c c' : Conf} {s : State c} {s' : State c'} (h : Measured δ c c' s s') (hn : c'.n = c.n) (hne : c'.ne = c.ne) {k : Key}
    (hh : k.here c) (h4 : k ≠ .d4q) (hx : k ≠ .ddxr) {v : Var} (hv : v ∈ k.vars c) : |env c' s' v - env c s v| ≤ δ := by
  obtain ⟨nm, i⟩ := v
  obtain ⟨e, hi, hf⟩ := Key.mem_vars.1 hv
  simp only at e hi hf
  subst e
  rw [env_key, env_key]
  have hd : ∀ {m m' : ℕ} (x : Fin m → ℝ) (x' : Fin m' → ℝ) (_ : ∀ i (h : i < m) (h' : i < m'), |x' ⟨i, h'⟩ - x ⟨i, h⟩| ≤ δ) (_ : m' = m) (_ : i < m),
      |(if h : i < m' then x' ⟨i, h⟩ else 0) - if h : i < m then x ⟨i, h⟩ else 0| ≤ δ := fun x x' hx e him => by
    rw [dif_pos him, dif_pos (e.symm ▸ him)]
    exact hx _ _ _
  cases k <;> first | contradiction | skip
  · exact hd _ _ h.q hn hi
  · exact hd _ _ h.dq hn hi
  · exact hd _ _ h.ddq hn hi
  · exact hd _ _ h.d3q hn hi
  · exact hd _ _ h.dqr hn hi
  · exact hd _ _ h.ddqr hn hi
  · exact hd _ _ (fun i _ _ => h.w _) rfl hi
  · exact hd _ _ h.x hne (by rwa [size_x hh] at hi)
  · exact hd _ _ h.dx hne (by rwa [size_dx hh] at hi)
  · exact hd _ _ h.ddx hne (by rwa [size_ddx hh] at hi)
  · exact h.dyn i (by rw [Nat.mul_comm]; exact hi) hf
  · exact h.dl i hi hf
  · exact h.K i (by rwa [size_K hh] at hi) hf
  · exact h.D i (by rwa [size_D hh] at hi) hf
  · exact h.Dm i (by rwa [size_Dm hh] at hi) hf
  · exact h.Mm i (by rwa [size_Mm hh] at hi) hf
  · exact h.dh i (by rw [Nat.mul_comm]; exact hi) hf
  · exact h.w2l i hi hf
  · exact h.ee i hi hf
  · exact h.g i hi hf

theorem within_mono {b b' : ℝ} (hb : b ≤ b') {c : Conf} {s : State c} (h : Within b c s) : Within b' c s :=
  ⟨fun i => (h.q i).trans hb, fun i => (h.dq i).trans hb, fun i => (h.ddq i).trans hb, fun i => (h.d3q i).trans hb, fun i => (h.dqr i).trans hb,
    fun i => (h.ddqr i).trans hb, fun i => (h.w i).trans hb, fun i => (h.x i).trans hb, fun i => (h.dx i).trans hb, fun i => (h.ddx i).trans hb,
    fun i a a' => (h.dh i a a').trans hb, fun i a a' => (h.w2l i a a').trans hb, fun i a a' => (h.ee i a a').trans hb, fun i a a' => (h.g i a a').trans hb,
    fun i a a' => (h.dyn i a a').trans hb, fun i a a' => (h.dl i a a').trans hb, fun i a a' => (h.K i a a').trans hb, fun i a a' => (h.D i a a').trans hb,
    fun i a a' => (h.Dm i a a').trans hb, fun i a a' => (h.Mm i a a').trans hb⟩

end

end Thunder
