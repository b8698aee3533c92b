import Verif.Props.Sensed
import Verif.Spec.Simulation
import Mathlib.Analysis.Calculus.MeanValue
import Mathlib.Analysis.SpecialFunctions.Exp

/-!
# Simulation by the method of Euler: C83
-/

open scoped Classical
open Matrix

namespace Thunder

noncomputable section

open Spec Robot SX

/-- One step of the method of Euler: the error of the exact values. -/
theorem euler_taylor {x v : ℝ → ℝ} {t h b : ℝ} (h0 : 0 < h) (hx : ∀ s, t ≤ s → HasDerivAt x (v s) s) (hv : ∀ s, t ≤ s → s ≤ t + h → |v s - v t| ≤ b * (s - t)) :
    |x (t + h) - (x t + h * v t)| ≤ h * (b * h) := by
  obtain ⟨ξ, ⟨h1, h2⟩, h3⟩ := exists_hasDerivAt_eq_slope x v (by linarith : t < t + h)
    (fun s hs => (hx s hs.1).continuousAt.continuousWithinAt) fun s hs => hx s hs.1.le
  rw [add_sub_cancel_left, eq_div_iff h0.ne'] at h3
  have h4 := hv ξ h1.le h2.le
  rw [show x (t + h) - (x t + h * v t) = h * (v ξ - v t) by linarith, abs_mul, abs_of_pos h0]
  refine mul_le_mul_of_nonneg_left (h4.trans ?_) h0.le
  have hb : 0 ≤ b := by
    have := (abs_nonneg _).trans h4
    exact nonneg_of_mul_nonneg_left this (by linarith)
  exact mul_le_mul_of_nonneg_left (by linarith) hb

/-- A derivative that is bounded. -/
theorem lipschitz_of {x v : ℝ → ℝ} {t s b : ℝ} (hs : t ≤ s) (hx : ∀ z, t ≤ z → HasDerivAt x (v z) z) (hv : ∀ z, t ≤ z → z ≤ s → |v z| ≤ b) :
    |x s - x t| ≤ b * (s - t) := by
  rcases hs.eq_or_lt with rfl | hs
  · simp
  obtain ⟨ξ, ⟨h1, h2⟩, h3⟩ := exists_hasDerivAt_eq_slope x v hs (fun s hs => (hx s hs.1).continuousAt.continuousWithinAt) fun s hs => hx s hs.1.le
  rw [eq_div_iff (by linarith)] at h3
  rw [← h3, abs_mul, abs_of_pos (by linarith : 0 < s - t)]
  exact mul_le_mul_of_nonneg_right (hv ξ h1.le h2.le) (by linarith)

/-- Errors that grow by a factor and a term in every step. -/
theorem gronwall_steps {P : ℕ → ℝ → Prop} {h L D e T d : ℝ} (h0 : 0 ≤ h) (hL : 0 ≤ L) (hD : 0 ≤ D) (he : 0 ≤ e)
    (hd : Real.exp (L * T) * (e + T * D) ≤ d) (hP : P 0 e) (mono : ∀ k x z, x ≤ z → P k x → P k z)
    (step : ∀ (k : ℕ) x, (k + 1 : ℝ) * h ≤ T → 0 ≤ x → x ≤ d → P k x → P (k + 1) ((1 + h * L) * x + h * D)) :
    ∀ k : ℕ, k * h ≤ T → P k (Real.exp (L * T) * (e + T * D)) := by
  have bound : ∀ k : ℕ, k * h ≤ T → (1 + h * L) ^ k * (e + k * h * D) ≤ Real.exp (L * T) * (e + T * D) := fun k hk => by
    have h1 : (1 + h * L) ^ k ≤ Real.exp (L * T) := by
      refine (pow_le_pow_left₀ (by positivity) ((add_comm _ _).trans_le (Real.add_one_le_exp (h * L))) k).trans ?_
      rw [← Real.exp_nat_mul]
      refine Real.exp_le_exp.2 ?_
      have := mul_le_mul_of_nonneg_right hk hL
      linarith
    refine mul_le_mul h1 ?_ (by positivity) (Real.exp_pos _).le
    have := mul_le_mul_of_nonneg_right hk hD
    linarith
  have key : ∀ k : ℕ, k * h ≤ T → P k ((1 + h * L) ^ k * (e + k * h * D)) := by
    intro k
    induction k with
    | zero =>
      intro _
      simpa using hP
    | succ k ih =>
      intro hk
      push_cast at hk
      have hk' : k * h ≤ T := by linarith
      have h1 := step k _ hk (by positivity) ((bound k hk').trans hd) (ih hk')
      refine mono _ _ _ ?_ h1
      have h2 : 1 ≤ (1 + h * L) ^ (k + 1) := one_le_pow₀ (by nlinarith [mul_nonneg h0 hL])
      have h3 := mul_le_mul_of_nonneg_right h2 (mul_nonneg h0 hD)
      have h4 : (1 + h * L) * ((1 + h * L) ^ k * (e + k * h * D)) = (1 + h * L) ^ (k + 1) * (e + k * h * D) := by ring
      rw [h4]
      push_cast
      nlinarith
  exact fun k hk => mono _ _ _ (bound k hk) (key k hk)

section

variable [Fl] {y : Yaml} {c : Conf}

/-- C83: the accelerations a simulator obtains in a state off by `δ`, from the computed terms and up to a residual of `r`. -/
theorem C83_step (h : Tunes y c) (hU : UnitNumeric c) (hp : Physical c.dyn c.n) (ho : ∀ i < c.n, 0 < ownInertia c.dyn i (kindOf c i)) (b : ℝ) :
    ∃ K u₀, 0 ≤ K ∧ 0 < u₀ ∧ ∀ s s' : State c, Within b c s → ∀ δ, 0 ≤ δ → Measured δ c c s s' → ∀ u, 0 ≤ u → u + δ ≤ u₀ →
      ∀ (m : Machine u) (R R' : String → Mat → Prop), OnMachine m y c s' R R' →
      ∃ (M C : Matrix (Fin c.n) (Fin c.n) ℝ) (G f : Fin c.n → ℝ), Returns R' "M" M ∧ Returns R' "C" C ∧ ReturnsVec R' "G" G ∧ ReturnsOrZero R' "dl" c.dlO f ∧
        (∀ τ, ∃ a, M *ᵥ a + C *ᵥ s'.dq + G + f = τ) ∧
        ∀ w a τ r, (∀ i, |w i| ≤ b) → massOf c s.q *ᵥ w + coriolisOf c s.q s.dq *ᵥ s.dq + gravityOf c s.q + frictionOf c c.dl s.dq = τ →
          (∀ i, |(M *ᵥ a + C *ᵥ s'.dq + G + f) i - τ i| ≤ r) → ∀ i, |a i - w i| ≤ K * (u + δ + r) := by
  obtain ⟨K, u₀, hK, hu, H⟩ := C82_terms h hU b
  obtain ⟨c₀, -, hj, hc⟩ := h
  have hjc := hc.joints hj
  obtain ⟨ε, hε, P⟩ := posdef_below (A := massOf c) (fun i j => continuous_massOf hjc.1 (typed_of hjc) hU (State.zero c) i j)
    (fun q v hv => massOf_pos hjc.1 (typed_of hjc) hU { State.zero c with q := q } hp ho hv) b
  have hn0 : (0 : ℝ) ≤ c.n := Nat.cast_nonneg _
  set L := c.n * |b| * K + c.n * (|b| + 1) * K + c.n * K + K + K + 1 with hL
  have hL0 : 1 ≤ L := by
    have : 0 ≤ c.n * |b| * K + c.n * (|b| + 1) * K + c.n * K + K + K := by positivity
    linarith
  refine ⟨(c.n + 1) / (ε / 2) * L, min (min u₀ 1) (ε / 2 / (c.n * K + 1)), by positivity, lt_min (lt_min hu one_pos) (by positivity),
    fun s s' hs δ hδ hd' u h0 h1 m R R' hm => ?_⟩
  obtain ⟨M, C, G, f, m1, c1, g1, f1, m2, c2, g2, f2, c3⟩ := H c s s' (retuned_refl c) hs δ hδ hd' u h0 (h1.trans ((min_le_left _ _).trans (min_le_left _ _))) m R R' hm
  have hδ1 : δ ≤ 1 := by linarith [h1.trans ((min_le_left _ _).trans (min_le_right _ _))]
  set w := u + δ with hw
  have hw0 : 0 ≤ w := add_nonneg h0 hδ
  have hsm : c.n * (K * w) ≤ ε / 2 := by
    have h2 : w * (c.n * K + 1) ≤ ε / 2 := (le_div_iff₀ (by positivity)).1 (h1.trans (min_le_right _ _))
    nlinarith
  have hpd := below_near (P s.q hs.q) m2 hsm
  have hpd' : ∀ v, v ≠ 0 → 0 < v ⬝ᵥ M *ᵥ v := fun v hv => by
    refine lt_of_lt_of_le (mul_pos (by positivity) ?_) (hpd v)
    obtain ⟨i, hi⟩ := Function.ne_iff.1 hv
    exact Finset.sum_pos' (fun i _ => mul_self_nonneg _) ⟨i, Finset.mem_univ i, mul_self_pos.2 hi⟩
  have hdet : IsUnit M.det := isUnit_iff_ne_zero.2 (det_of_posdef hpd')
  refine ⟨M, C, G, f, m1, c1, g1, f1, fun τ => ⟨M⁻¹ *ᵥ (τ - C *ᵥ s'.dq - G - f), ?_⟩, fun acc a τ r hacc hτ hr i => ?_⟩
  · rw [mulVec_mulVec, mul_nonsing_inv _ hdet, one_mulVec]
    abel
  have hr0 : 0 ≤ r := (abs_nonneg _).trans (hr i)
  refine (solution_le (A := M) (ε := ε / 2) (ρ := L * (w + r)) (by positivity) hpd (e := a - acc) (fun j => ?_) i).trans (le_of_eq (by ring))
  have hdq : ∀ i, |s'.dq i - s.dq i| ≤ δ := fun i => hd'.dq i i.2 i.2
  have hdq' : ∀ i, |s'.dq i| ≤ |b| + 1 := fun i => by
    have h2 := abs_add_le (s'.dq i - s.dq i) (s.dq i)
    rw [sub_add_cancel] at h2
    linarith [hdq i, (hs.dq i).trans (le_abs_self b)]
  have k1 := mulVec_near m2 (fun i => (hacc i).trans (le_abs_self b)) j
  have k2 := mulVec_near c2 hdq' j
  have k6 : |(coriolisOf c s.q s.dq *ᵥ s'.dq) j - (coriolisOf c s.q s.dq *ᵥ s.dq) j| ≤ c.n * K * w := by
    have e : (coriolisOf c s.q s.dq *ᵥ s'.dq) j - (coriolisOf c s.q s.dq *ᵥ s.dq) j =
        ∑ l, coriolisOf c s.q s.dq j l * (s'.dq l - s.dq l) := by
      simp only [mulVec, dotProduct]
      rw [← Finset.sum_sub_distrib]
      exact Finset.sum_congr rfl fun l _ => by ring
    rw [e]
    refine (Finset.abs_sum_le_sum_abs _ _).trans ((Finset.sum_le_sum (g := fun _ => K * w) fun l _ => ?_).trans_eq ?_)
    · rw [abs_mul]
      exact mul_le_mul (c3 j l) ((hdq l).trans (by linarith)) (abs_nonneg _) hK
    · rw [Finset.sum_const, Finset.card_univ, Fintype.card_fin, nsmul_eq_mul]
      ring
  have k3 := g2 j
  have k4 := f2 j
  have k5 := hr j
  rw [← hτ] at k5
  simp only [Pi.add_apply] at k5
  rw [mulVec_sub, Pi.sub_apply]
  have e1 : L * (w + r) = c.n * |b| * (K * w) + c.n * (|b| + 1) * (K * w) + c.n * K * w + K * w + K * w + w + r + (L - 1) * r := by
    rw [hL]; ring
  have e2 : 0 ≤ (L - 1) * r := mul_nonneg (by linarith) hr0
  rw [abs_le] at k1 k2 k3 k4 k5 k6 ⊢
  constructor <;> linarith

omit [Fl] in
theorem measured_posed (s : State c) {q v q' v' : Fin c.n → ℝ} {δ : ℝ} (h0 : 0 ≤ δ) (hq : ∀ i, |q' i - q i| ≤ δ) (hv : ∀ i, |v' i - v i| ≤ δ) :
    Measured δ c c (posed s q v) (posed s q' v') := by
  have hz : ∀ x : ℝ, |x - x| ≤ δ := fun x => by rwa [sub_self, abs_zero]
  exact ⟨fun i h _ => hq ⟨i, h⟩, fun i h _ => hv ⟨i, h⟩, fun i _ _ => hz _, fun i _ _ => hz _, fun i _ _ => hz _, fun i _ _ => hz _, fun i => hz _,
    fun i _ _ => hz _, fun i _ _ => hz _, fun i _ _ => hz _, fun i _ _ => hz _, fun i _ _ => hz _, fun i _ _ => hz _, fun i _ _ => hz _,
    fun i _ _ => hz _, fun i _ _ => hz _, fun i _ _ => hz _, fun i _ _ => hz _, fun i _ _ => hz _, fun i _ _ => hz _⟩

/-- C83: a motion of the mechanism up to time `T` is simulated by the method of Euler with steps `h`, on a machine with errors `u` and with other errors of at
most `r`, from initial values off by at most `e`.  Positions and velocities are off by at most a constant times the sum of these errors and `h`. -/
theorem C83_euler (hy : Tunes y c) (hU : UnitNumeric c) (hp : Physical c.dyn c.n) (ho : ∀ i < c.n, 0 < ownInertia c.dyn i (kindOf c i)) (b : ℝ) {T : ℝ}
    (hT : 0 ≤ T) : ∃ K d₀, 0 ≤ K ∧ 0 < d₀ ∧ ∀ u h r e, 0 ≤ u → 0 < h → 0 ≤ r → 0 ≤ e → u + h + r + e ≤ d₀ → ∀ (m : Machine u) (st : ℝ → State c) (s₀ : State c)
      (τ : ℝ → Fin c.n → ℝ) (R R' : ℕ → String → Mat → Prop) (Q V A : ℕ → Fin c.n → ℝ), Driven c st τ →
      (∀ t, 0 ≤ t → t ≤ T → Within b c (posed s₀ (st t).q (st t).dq) ∧ ∀ i, |(st t).ddq i| ≤ b) →
      (∀ t z, 0 ≤ t → t ≤ z → z ≤ T → ∀ i, |(st z).ddq i - (st t).ddq i| ≤ b * (z - t)) →
      (∀ k, OnMachine m y c (posed s₀ (Q k) (V k)) (R k) (R' k)) → Simulates c R' τ h r Q V A →
      (∀ i, |Q 0 i - (st 0).q i| ≤ e ∧ |V 0 i - (st 0).dq i| ≤ e) → ∀ k : ℕ, k * h ≤ T → ∀ i,
        |Q k i - (st (k * h)).q i| ≤ K * (u + h + r + e) ∧ |V k i - (st (k * h)).dq i| ≤ K * (u + h + r + e) := by
  obtain ⟨K, u₀, hK, hu₀, H⟩ := C83_step hy hU hp ho b
  set L := K + 1 with hL
  set N := Real.exp (L * T) * (1 + T * (K + 1 + |b|)) with hN
  have hN0 : 0 ≤ N := by positivity
  refine ⟨N, u₀ / (N + 1), hN0, by positivity, fun u h r e hu hh hr he hsum m st s₀ τ R R' Q V A hd hb ha hm hs hi k hk => ?_⟩
  set σ := u + h + r + e with hσ
  have hσ0 : 0 ≤ σ := by positivity
  have hsum' : σ * (N + 1) ≤ u₀ := (le_div_iff₀ (by positivity)).1 hsum
  set D := K * (u + r) + r + |b| * h with hD
  have hD0 : 0 ≤ D := by positivity
  have hB : Real.exp (L * T) * (e + T * D) ≤ N * σ := by
    rw [hN, mul_assoc]
    refine mul_le_mul_of_nonneg_left ?_ (Real.exp_pos _).le
    have h1 : D ≤ (K + 1 + |b|) * σ := by
      have e1 : (K + 1 + |b|) * σ - D = K * (h + e) + (u + h + e) + |b| * (u + r + e) := by rw [hD, hσ]; ring
      have : 0 ≤ K * (h + e) + (u + h + e) + |b| * (u + r + e) := by positivity
      linarith
    have h2 := mul_le_mul_of_nonneg_left h1 hT
    have h3 : e ≤ σ := by linarith
    linarith
  have main := gronwall_steps (P := fun k x => ∀ i, |Q k i - (st (k * h)).q i| ≤ x ∧ |V k i - (st (k * h)).dq i| ≤ x) (h := h) (L := L) (D := D) (e := e) (T := T)
    (d := N * σ) hh.le (by positivity) hD0 he hB (by simpa using hi) (fun k x z hxz h i => ⟨(h i).1.trans hxz, (h i).2.trans hxz⟩) ?_ k hk
  · exact fun i => ⟨(main i).1.trans hB, (main i).2.trans hB⟩
  intro k x hk hx0 hx hP i
  have ht0 : 0 ≤ (k : ℝ) * h := by positivity
  have htT : (k : ℝ) * h ≤ T := by nlinarith
  have et : ((k + 1 : ℕ) : ℝ) * h = k * h + h := by push_cast; ring
  have htT' : (k : ℝ) * h + h ≤ T := by linarith
  have hl := hs.law k
  rw [et]
  generalize (k : ℝ) * h = t at *
  obtain ⟨hbt, hat⟩ := hb t ht0 htT
  obtain ⟨M, C, G, f, m1, c1, g1, f1, -, hacc⟩ := H (posed s₀ (st t).q (st t).dq) (posed s₀ (Q k) (V k)) hbt x hx0
    (measured_posed s₀ hx0 (fun i => (hP i).1) fun i => (hP i).2) u hu (by nlinarith) m _ _ (hm k)
  have k1 := hacc (st t).ddq (A k) (τ t) r hat (hd.law t ht0) (hl M C G f m1 c1 g1 f1) i
  have k2 := hs.q k i
  have k3 := hs.v k i
  obtain ⟨k4, k5⟩ := hP i
  have hbb : b ≤ |b| := le_abs_self b
  have k6 := euler_taylor (x := fun z => (st z).q i) (v := fun z => (st z).dq i) (b := |b|) hh (fun z hz => hd.q z (ht0.trans hz) i) fun z hz hz' =>
    lipschitz_of (x := fun z => (st z).dq i) (v := fun z => (st z).ddq i) hz (fun w hw => hd.dq w (ht0.trans hw) i)
      fun w hw hw' => ((hb w (ht0.trans hw) (by linarith)).2 i).trans hbb
  have k7 := euler_taylor (x := fun z => (st z).dq i) (v := fun z => (st z).ddq i) (b := |b|) hh (fun z hz => hd.dq z (ht0.trans hz) i) fun z hz hz' =>
    (ha t z ht0 hz (by linarith) i).trans (mul_le_mul_of_nonneg_right hbb (by linarith))
  have e1 : (1 + h * L) * x + h * D = x + h * (K * (u + x + r)) + h * x + h * r + h * (|b| * h) := by rw [hL, hD]; ring
  have k8 : |h * V k i - h * (st t).dq i| ≤ h * x := by
    rw [← mul_sub, abs_mul, abs_of_pos hh]
    exact mul_le_mul_of_nonneg_left k5 hh.le
  have k9 : |h * A k i - h * (st t).ddq i| ≤ h * (K * (u + x + r)) := by
    rw [← mul_sub, abs_mul, abs_of_pos hh]
    exact mul_le_mul_of_nonneg_left k1 hh.le
  have p1 : 0 ≤ h * (K * (u + x + r)) := by positivity
  have p2 : 0 ≤ h * x := by positivity
  rw [e1]
  rw [abs_le] at k2 k3 k4 k5 k6 k7 k8 k9
  constructor <;> rw [abs_le] <;> constructor <;> linarith

end

namespace Ex

/-- The arm with solid links, its positions off by `δ`: the accelerations solved from the computed terms. -/
example (b : ℝ) : ∃ K u₀, 0 ≤ K ∧ 0 < u₀ ∧ ∀ s : Spec.State solid, Within b solid s → ∀ u δ, 0 ≤ u → 0 ≤ δ → u + δ ≤ u₀ → ∀ m : Machine u,
    ∃ r, @Running fl (fileOf solid) solid (posed s (fun i => s.q i + δ) s.dq) r ∧
    ∃ (M C : Matrix (Fin 2) (Fin 2) ℝ) (G f a : Fin 2 → ℝ), Returns (answersOn m r) "M" M ∧ Returns (answersOn m r) "C" C ∧ ReturnsVec (answersOn m r) "G" G ∧
      M *ᵥ a + C *ᵥ s.dq + G + f = @massOf fl solid s.q *ᵥ s.ddq + @coriolisOf fl solid s.q s.dq *ᵥ s.dq + @gravityOf fl solid s.q + frictionOf solid solid.dl s.dq ∧
      ∀ i, |a i - s.ddq i| ≤ K * (u + δ) := by
  let _ := fl
  have hd : Describes (fileOf solid) solid := describes_fileOf fun h => nomatch h
  obtain ⟨K, u₀, h0, h1, H⟩ := C83_step ⟨solid, hd, joints_arm, retuned_refl solid⟩ unit_solid physical_solid own_solid b
  refine ⟨K, u₀, h0, h1, fun s hs u δ hu hδ hu' m => ?_⟩
  obtain ⟨r, h⟩ := @C56_reachable fl _ _ _ hd joints_arm (retuned_refl solid) (posed s (fun i => s.q i + δ) s.dq)
  obtain ⟨M, C, G, f, e1, e2, e3, -, e4, e5⟩ := H s _ hs δ hδ (measured_posed s (q := s.q) (v := s.dq) hδ (fun i => by
    rw [add_sub_cancel_left, abs_of_nonneg hδ]) fun i => by rwa [sub_self, abs_zero]) u hu hu' m _ _ (.robot h)
  obtain ⟨a, e4⟩ := e4 _
  refine ⟨r, h, M, C, G, f, a, e1, e2, e3, e4, fun i => ?_⟩
  have := e5 s.ddq a _ 0 hs.ddq rfl (fun i => by rw [e4, sub_self, abs_zero]) i
  rwa [add_zero] at this

/-- The slider, simulated with steps of `h` from its position -1: the exact solution decays as `exp (-t)`, the simulated one as `(1 - h) ^ k`. -/
example : ∃ K d₀, 0 ≤ K ∧ 0 < d₀ ∧ ∀ u h, 0 ≤ u → 0 < h → u + h ≤ d₀ → ∃ R R' : ℕ → String → Mat → Prop, ∃ hu : 0 ≤ u,
    (∀ k, @OnMachine _ fl (flawless hu) (fileOf (slider false)) (slider false) (posed (slowing false 0) (fun _ => -(1 - h) ^ k) (fun _ => (1 - h) ^ k)) (R k) (R' k)) ∧
    Simulates (slider false) R' (fun _ => 0) h 0 (fun k _ => -(1 - h) ^ k) (fun k _ => (1 - h) ^ k) (fun k _ => -(1 - h) ^ k) ∧
    ∀ k : ℕ, k * h ≤ 10 → |-(1 - h) ^ k - -Real.exp (-(k * h))| ≤ K * (u + h) := by
  let _ := fl
  obtain ⟨b', hb'⟩ := within_slowing
  obtain ⟨b, hb, hb1⟩ : ∃ b, (∀ t, 0 ≤ t → Within b (slider false) (slowing false t)) ∧ 1 ≤ b :=
    ⟨max b' 1, fun t ht => within_mono (le_max_left _ _) (hb' t ht), le_max_right _ _⟩
  obtain ⟨hp, ho⟩ := inertia_slider
  have hd : Describes (fileOf (slider false)) (slider false) := describes_fileOf fun _ => ⟨rfl, rfl, rfl⟩
  obtain ⟨K, d₀, h0, h1, H⟩ := C83_euler ⟨_, hd, joints_slider false, retuned_refl _⟩ (unit_slider false) hp ho b (T := 10) (by norm_num)
  refine ⟨K, d₀, h0, h1, fun u h hu hh huh => ?_⟩
  have hr' : ∀ k : ℕ, ∃ r, Running (fileOf (slider false)) (slider false) (posed (slowing false 0) (fun _ => -(1 - h) ^ k) (fun _ => (1 - h) ^ k)) r :=
    fun k => C56_reachable hd (joints_slider false) (retuned_refl _) _
  choose r hr using hr'
  have hm : ∀ k : ℕ, OnMachine (flawless hu) (fileOf (slider false)) (slider false) (posed (slowing false 0) (fun _ => -(1 - h) ^ k) (fun _ => (1 - h) ^ k))
      (answers (r k)) (answersOn (flawless hu) (r k)) := fun k => .robot (hr k)
  have hs : Simulates (slider false) (fun k => answersOn (flawless hu) (r k)) (fun _ => 0) h 0 (fun k _ => -(1 - h) ^ k) (fun k _ => (1 - h) ^ k)
      (fun k _ => -(1 - h) ^ k) := by
    refine ⟨fun k M C G f hM hC hG hf i => ?_, fun k i => ?_, fun k i => ?_⟩
    · obtain ⟨h1, h2, -, h3⟩ := C58_matrices (.robot (hr k)) (unit_slider false)
      have e1 := flawless_returns hu (hr k) (f := "M") (by decide) hM h1
      have e2 := flawless_returns hu (hr k) (f := "C") (by decide) hC h2
      have e3 : G = gravityOf (slider false) _ := funext fun i => congrFun (congrFun (flawless_returns hu (hr k) (f := "G") (by decide) hG h3) i) 0
      have e4 : f = frictionOf (slider false) (slider false).dl _ :=
        funext fun i => congrFun (congrFun (flawless_returns hu (hr k) (Fn.mem_library.2 ⟨.dl, Nat.one_pos, rfl⟩) (hf.1 Nat.one_pos)
          (C60_link (.robot (hr k)) Nat.one_pos).1) i) 0
      rw [e1, e2, e3, e4, friction_slider, Pi.add_apply, Pi.add_apply, Pi.add_apply, mulVec_slider, mulVec_slider, mass_slider, coriolis_slider, gravity_slider,
        one_mul, zero_mul, add_zero, add_zero]
      show |-(1 - h) ^ k + (1 - h) ^ k - 0| ≤ 0
      simp
    · rw [show -(1 - h) ^ (k + 1) - (-(1 - h) ^ k + h * (1 - h) ^ k) = 0 by ring]
      simp
    · rw [show (1 - h) ^ (k + 1) - ((1 - h) ^ k + h * -(1 - h) ^ k) = 0 by ring]
      simp
  refine ⟨_, _, hu, hm, hs, fun k hk => ?_⟩
  have := (H u h 0 0 hu hh le_rfl le_rfl (by linarith) (flawless hu) (slowing false) (slowing false 0) _ _ _ _ _ _ driven_slowing (fun t ht _ => ⟨?_, (hb t ht).ddq⟩) ?_ hm hs
    (fun i => ⟨?_, ?_⟩) k hk ⟨0, Nat.one_pos⟩).1
  · rw [add_zero, add_zero] at this
    exact this
  · exact { hb 0 le_rfl with q := (hb t ht).q, dq := (hb t ht).dq }
  · intro t z ht hz _ i
    have h2 := lipschitz_of (x := fun z => -Real.exp (-z)) (v := fun z => Real.exp (-z)) hz (fun w _ => hasDerivAt_slowing' w) fun w hw _ => by
      rw [abs_of_pos (Real.exp_pos _)]
      exact (Real.exp_le_one_iff.2 (by linarith)).trans hb1
    exact h2
  · show |-(1 - h) ^ 0 - -Real.exp (-0)| ≤ 0
    simp
  · show |(1 - h) ^ 0 - Real.exp (-0)| ≤ 0
    simp

end Ex

end

end Thunder
