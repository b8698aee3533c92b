import Verif.Props.Simulation
import Verif.Spec.Sampled
import Verif.Lib.DampedRight

/-!
# Computed torque at the sampling times: C84
-/

open scoped Classical
open Matrix Set

namespace Thunder

noncomputable section

open Spec Robot SX

/-- A derivative on the right that is bounded. -/
theorem lipschitz_right {x v : ℝ → ℝ} {t s b : ℝ} (hs : t ≤ s) (hc : ContinuousOn x (Icc t s)) (hx : ∀ z ∈ Ico t s, HasDerivWithinAt x (v z) (Ici z) z)
    (hv : ∀ z ∈ Ico t s, |v z| ≤ b) : |x s - x t| ≤ b * (s - t) :=
  norm_image_sub_le_of_norm_deriv_right_le_segment hc hx hv s (right_mem_Icc.2 hs)

theorem mulVec_le {n : ℕ} {A : Matrix (Fin n) (Fin n) ℝ} {v : Fin n → ℝ} {a b : ℝ} (hA : ∀ i j, |A i j| ≤ a) (hv : ∀ i, |v i| ≤ b) (i : Fin n) :
    |(A *ᵥ v) i| ≤ n * b * a := by
  have := mulVec_near (A := 0) (B := A) (fun i j => by rw [Matrix.zero_apply, sub_zero]; exact hA i j) hv i
  rwa [zero_mulVec, Pi.zero_apply, sub_zero] at this

theorem errors_lt {v e k B S : ℝ} (hk : 0 < k) (hB : 1 ≤ B) (hS : 1 / k ≤ S) (h : v ^ 2 + k * e ^ 2 < B) : |e| < B * (1 + S) ∧ |v| < B * (1 + S) := by
  have h0 : 0 < 1 / k := one_div_pos.2 hk
  have h1 : 1 ≤ B * (1 + S) := by nlinarith
  have h2 : B ≤ B * (1 + S) := le_mul_of_one_le_right (by linarith) (by linarith)
  have h3 : B * (1 + S) ≤ (B * (1 + S)) ^ 2 := le_self_pow₀ h1 two_ne_zero
  constructor
  · refine abs_lt_of_sq_lt_sq ?_ (by linarith)
    have h4 : e ^ 2 < B * (1 / k) := by
      rw [mul_one_div, lt_div_iff₀ hk]
      nlinarith [sq_nonneg v]
    have h5 : B * (1 / k) ≤ B * (1 + S) := mul_le_mul_of_nonneg_left (by linarith) (by linarith)
    linarith
  · refine abs_lt_of_sq_lt_sq ?_ (by linarith)
    have h4 : 0 ≤ k * e ^ 2 := by positivity
    linarith

section

variable [Fl] {y : Yaml} {c : Conf}

theorem terms_bounded (h : Tunes y c) (hU : UnitNumeric c) (b : ℝ) :
    ∃ H, 0 ≤ H ∧ ∀ s : State c, Within b c s → (∀ i j, |massOf c s.q i j| ≤ H) ∧ (∀ i j, |coriolisOf c s.q s.dq i j| ≤ H) ∧ (∀ i, |gravityOf c s.q i| ≤ H) ∧
      ∀ i, |frictionOf c c.dl s.dq i| ≤ H := by
  obtain ⟨c₀, hd, hj, hc⟩ := h
  have lib : ∀ F : Fn, F.Valid c → F.name ∈ library c₀ := fun F hF => Fn.mem_library.2 ⟨F, (hc.valid F) ▸ hF, rfl⟩
  obtain ⟨K₁, hK₁, H₁⟩ := C82_bounded (y := y) hj (lib .M trivial) b
  obtain ⟨K₂, hK₂, H₂⟩ := C82_bounded (y := y) hj (lib .C trivial) b
  obtain ⟨K₃, hK₃, H₃⟩ := C82_bounded (y := y) hj (lib .G trivial) b
  obtain ⟨K₄, hK₄, H₄⟩ : ∃ K, 0 ≤ K ∧ ∀ s : State c, Within b c s → ∀ R, Source y c s R → ∀ i, |frictionOf c c.dl s.dq i| ≤ K := by
    rcases Nat.eq_zero_or_pos c.dlO with hd | hd
    · refine ⟨0, le_rfl, fun s _ R _ i => ?_⟩
      have : frictionOf c c.dl s.dq i = 0 := by
        show friction _ c.dlO _ = 0
        rw [hd]; exact Finset.sum_range_zero _
      rw [this, abs_zero]
    · obtain ⟨K, hK, H⟩ := C82_bounded (y := y) hj (lib .dl hd) b
      exact ⟨K, hK, fun s hs R hR i => H c s hc hs R hR (C60_link hR hd).1 i 0⟩
  refine ⟨max (max K₁ K₂) (max K₃ K₄), le_max_of_le_left (le_max_of_le_left hK₁), fun s hs => ?_⟩
  obtain ⟨r, hr⟩ := C56_reachable hd hj hc s
  have h₀ : Source y c s (answers r) := .robot hr
  obtain ⟨a1, a2, -, a3⟩ := C58_matrices h₀ hU
  exact ⟨fun i j => (H₁ c s hc hs _ h₀ a1 i j).trans (le_max_of_le_left (le_max_left _ _)),
    fun i j => (H₂ c s hc hs _ h₀ a2 i j).trans (le_max_of_le_left (le_max_right _ _)),
    fun i => (H₃ c s hc hs _ h₀ a3 i 0).trans (le_max_of_le_right (le_max_left _ _)),
    fun i => (H₄ s hs _ h₀ i).trans (le_max_of_le_right (le_max_right _ _))⟩

/-- C84: the torques a controller computes for accelerations `a` from measured values are held while the mechanism moves on.  The accelerations remain
bounded, and differ from `a` by at most a constant times `u + δ` as long as positions and velocities differ from those measured by at most `δ`. -/
theorem C84_torque (h : Tunes y c) (hU : UnitNumeric c) (hp : Physical c.dyn c.n) (ho : ∀ i < c.n, 0 < ownInertia c.dyn i (kindOf c i)) (b α : ℝ) :
    ∃ K A u₀, 0 ≤ K ∧ 0 ≤ A ∧ 0 < u₀ ∧ ∀ (c' : Conf) (hn : c.n = c'.n) (s' : State c'), Retuned c c' →
      ∀ u, 0 ≤ u → ∀ (m : Machine u) (R R' : String → Mat → Prop), OnMachine m y c' s' R R' → ∀ a τ : Fin c.n → ℝ, (∀ i, |a i| ≤ α) →
      (∀ (M C : Matrix (Fin c.n) (Fin c.n) ℝ) (G f : Fin c.n → ℝ), Returns R' "M" M → Returns R' "C" C → ReturnsVec R' "G" G → ReturnsOrZero R' "dl" c.dlO f →
        τ = M *ᵥ a + C *ᵥ (fun i => s'.dq (i.cast hn)) + G + f) →
      ∀ s : State c, Within b c s → ∀ δ, 0 ≤ δ → u + δ ≤ u₀ → Measured δ c c' s s' →
        (∀ w, massOf c s.q *ᵥ w + coriolisOf c s.q s.dq *ᵥ s.dq + gravityOf c s.q + frictionOf c c.dl s.dq = τ → ∀ i, |w i - a i| ≤ K * (u + δ)) ∧
        ∀ z : State c, Within b c z → ∀ w, massOf c z.q *ᵥ w + coriolisOf c z.q z.dq *ᵥ z.dq + gravityOf c z.q + frictionOf c c.dl z.dq = τ → ∀ i, |w i| ≤ A := by
  obtain ⟨K, u₀, hK, hu, H⟩ := C82_terms h hU b
  obtain ⟨N, hN, B⟩ := terms_bounded h hU b
  obtain ⟨c₀, -, hj, hc⟩ := h
  have hjc := hc.joints hj
  obtain ⟨ε, hε, P⟩ := posdef_below (A := massOf c) (fun i j => continuous_massOf hjc.1 (typed_of hjc) hU (State.zero c) i j)
    (fun q v hv => massOf_pos hjc.1 (typed_of hjc) hU { State.zero c with q := q } hp ho hv) b
  have hn0 : (0 : ℝ) ≤ c.n := Nat.cast_nonneg _
  set L := c.n * |α| * K + c.n * (|b| + 1) * K + c.n * K + K + K with hL
  have hL0 : 0 ≤ L := by positivity
  set X := (c.n * |α| * N + c.n * |b| * N + N + N + L) + (c.n * |b| * N + N + N) with hX
  have hX0 : 0 ≤ X := by positivity
  refine ⟨(c.n + 1) / ε * L, (c.n + 1) / ε * X, min u₀ 1, by positivity, by positivity, lt_min hu one_pos,
    fun c' hn s' hc' u h0 m R R' hm a τ ha hτ s hs δ hδ h1 hd' => ?_⟩
  obtain ⟨M, C, G, f, m1, c1, g1, f1, m2, c2, g2, f2, c3⟩ := H c' s s' hc' hs δ hδ hd' u h0 (h1.trans (min_le_left _ _)) m R R' hm
  have hδ1 : δ ≤ 1 := by linarith [h1.trans (min_le_right _ _)]
  have hw1 : u + δ ≤ 1 := h1.trans (min_le_right _ _)
  have hτ := hτ M C G f m1 c1 g1 f1
  set V : Fin c.n → ℝ := fun i => s'.dq (i.cast hn) with hV
  set w := u + δ with hw
  have hw0 : 0 ≤ w := add_nonneg h0 hδ
  have hdq : ∀ i, |V i - s.dq i| ≤ δ := fun i => hd'.dq i i.2 (hn ▸ i.2)
  have hdq' : ∀ i, |V i| ≤ |b| + 1 := fun i => by
    have h2 := abs_add_le (V i - s.dq i) (s.dq i)
    rw [sub_add_cancel] at h2
    linarith [hdq i, (hs.dq i).trans (le_abs_self b)]
  have key : ∀ j, |τ j - (massOf c s.q *ᵥ a + coriolisOf c s.q s.dq *ᵥ s.dq + gravityOf c s.q + frictionOf c c.dl s.dq) j| ≤ L * w := fun j => by
    have k1 := mulVec_near m2 (fun i => (ha i).trans (le_abs_self α)) j
    have k2 := mulVec_near c2 hdq' j
    have k6 : |(coriolisOf c s.q s.dq *ᵥ V) j - (coriolisOf c s.q s.dq *ᵥ s.dq) j| ≤ c.n * K * w := by
      have e : (coriolisOf c s.q s.dq *ᵥ V) j - (coriolisOf c s.q s.dq *ᵥ s.dq) j = (coriolisOf c s.q s.dq *ᵥ (V - s.dq)) j := by
        rw [mulVec_sub, Pi.sub_apply]
      rw [e]
      exact (mulVec_le c3 (v := V - s.dq) (b := w) (fun i => (hdq i).trans (by linarith)) j).trans_eq (by ring)
    have k3 := g2 j
    have k4 := f2 j
    have k5 := congrFun hτ j
    simp only [Pi.add_apply] at k5 ⊢
    have e1 : L * w = c.n * |α| * (K * w) + c.n * (|b| + 1) * (K * w) + c.n * K * w + K * w + K * w := by
      rw [hL]; ring
    rw [abs_le] at k1 k2 k3 k4 k6 ⊢
    constructor <;> linarith
  constructor
  · intro acc hacc i
    refine (solution_le (A := massOf c s.q) (ρ := L * w) hε (P s.q hs.q) (e := acc - a) (fun j => ?_) i).trans (le_of_eq (by ring))
    have k := key j
    rw [← hacc] at k
    simp only [Pi.add_apply] at k
    rw [mulVec_sub, Pi.sub_apply]
    rw [abs_le] at k ⊢
    constructor <;> linarith
  · intro z hz acc hacc i
    refine solution_le (A := massOf c z.q) (ρ := X) hε (P z.q hz.q) (e := acc) (fun j => ?_) i
    obtain ⟨b1, b2, b3, b4⟩ := B s hs
    obtain ⟨z1, z2, z3, z4⟩ := B z hz
    have k := key j
    have k1 := mulVec_le b1 (fun i => (ha i).trans (le_abs_self α)) j
    have k2 := mulVec_le b2 (fun i => (hs.dq i).trans (le_abs_self b)) j
    have k3 := b3 j
    have k4 := b4 j
    have l2 := mulVec_le z2 (fun i => (hz.dq i).trans (le_abs_self b)) j
    have l3 := z3 j
    have l4 := z4 j
    have k5 := congrFun hacc j
    simp only [Pi.add_apply] at k k5
    have k6 : L * w ≤ L := mul_le_of_le_one_right hL0 hw1
    rw [hX]
    rw [abs_le] at k k1 k2 k3 k4 l2 l3 l4 ⊢
    constructor <;> linarith

omit [Fl] in
/-- A measurement, some time later. -/
theorem measured_later {c' : Conf} {s : State c} {s' : State c'} {q v q' v' : Fin c.n → ℝ} {δ η : ℝ} (h0 : 0 ≤ η) (h : Measured δ c c' (posed s q v) s')
    (hq : ∀ i, |q' i - q i| ≤ η) (hv : ∀ i, |v' i - v i| ≤ η) : Measured (δ + η) c c' (posed s q' v') s' := by
  have hz : ∀ {x : ℝ}, x ≤ δ → x ≤ δ + η := fun h => by linarith
  refine ⟨fun i a a' => ?_, fun i a a' => ?_, fun i a a' => hz (h.ddq i a a'), fun i a a' => hz (h.d3q i a a'), fun i a a' => hz (h.dqr i a a'),
    fun i a a' => hz (h.ddqr i a a'), fun i => hz (h.w i), fun i a a' => hz (h.x i a a'), fun i a a' => hz (h.dx i a a'), fun i a a' => hz (h.ddx i a a'),
    fun i a a' => hz (h.dh i a a'), fun i a a' => hz (h.w2l i a a'), fun i a a' => hz (h.ee i a a'), fun i a a' => hz (h.g i a a'),
    fun i a a' => hz (h.dyn i a a'), fun i a a' => hz (h.dl i a a'), fun i a a' => hz (h.K i a a'), fun i a a' => hz (h.D i a a'),
    fun i a a' => hz (h.Dm i a a'), fun i a a' => hz (h.Mm i a a')⟩
  · have k1 := h.q i a a'
    have k2 := hq ⟨i, a⟩
    change |s'.q ⟨i, a'⟩ - q ⟨i, a⟩| ≤ δ at k1
    show |s'.q ⟨i, a'⟩ - q' ⟨i, a⟩| ≤ δ + η
    rw [abs_le] at k1 k2 ⊢
    constructor <;> linarith
  · have k1 := h.dq i a a'
    have k2 := hv ⟨i, a⟩
    change |s'.dq ⟨i, a'⟩ - v ⟨i, a⟩| ≤ δ at k1
    show |s'.dq ⟨i, a'⟩ - v' ⟨i, a⟩| ≤ δ + η
    rw [abs_le] at k1 k2 ⊢
    constructor <;> linarith

set_option maxHeartbeats 1000000 in
/-- C84: computed torque with readings at the times `0, h, 2 h, …`, off by at most `δ`, and torques held in between.  Nothing is assumed about the bounds of the
motion: for every bound of the initial errors there is one of `u + h + δ` below which the errors die out up to a term proportional to `u + h + δ`. -/
theorem C84_follows (hy : Tunes y c) (hU : UnitNumeric c) (hp : Physical c.dyn c.n) (ho : ∀ i < c.n, 0 < ownInertia c.dyn i (kindOf c i)) (b E : ℝ)
    {kp kd : Fin c.n → ℝ} (h0 : ∀ i, 0 < kp i ∧ 0 < kd i) :
    ∃ K d₀, 0 ≤ K ∧ 0 < d₀ ∧ ∀ u h δ, 0 ≤ u → 0 < h → 0 ≤ δ → u + h + δ ≤ d₀ → ∀ (m : Machine u) (c' : Conf) (hn : c.n = c'.n) (s₀ : State c) (st : ℝ → State c)
      (st' : ℕ → State c') (R R' : ℕ → String → Mat → Prop) (τ d d' d'' : ℝ → Fin c.n → ℝ), Retuned c c' → Within b c s₀ →
      (∀ k : ℕ, Measured δ c c' (posed s₀ (st (k * h)).q (st (k * h)).dq) (st' k)) → (∀ k, OnMachine m y c' (st' k) (R k) (R' k)) → DrivenRight c st τ →
      SampledTorque c h R' (fun k i => (st' k).q (i.cast hn)) (fun k i => (st' k).dq (i.cast hn)) kp kd d d' d'' τ →
      (∀ t, 0 ≤ t → ∀ i, |d t i| ≤ b ∧ |d' t i| ≤ b ∧ |d'' t i| ≤ b) → (∀ t z, 0 ≤ t → t ≤ z → ∀ i, |d'' z i - d'' t i| ≤ b * (z - t)) →
      (∀ t, 0 ≤ t → ∀ i, HasDerivAt (fun z => d z i) (d' t i) t) → (∀ t, 0 ≤ t → ∀ i, HasDerivAt (fun z => d' z i) (d'' t i) t) →
      (∀ i, ((st 0).dq i - d' 0 i) ^ 2 + kp i * ((st 0).q i - d 0 i) ^ 2 ≤ E) → ∀ t, 0 ≤ t → ∀ i,
        ((st t).dq i - d' t i) ^ 2 + kp i * ((st t).q i - d t i) ^ 2 ≤
          5 * (((st 0).dq i - d' 0 i) ^ 2 + kp i * ((st 0).q i - d 0 i) ^ 2) * Real.exp (-(min (kd i / 3) (kp i / kd i) / 2 * t)) +
            12 * (K * (u + h + δ) / min (kd i / 3) (kp i / kd i)) ^ 2 := by
  set l : Fin c.n → ℝ := fun i => min (kd i / 3) (kp i / kd i) with hl
  have l0 : ∀ i, 0 < l i := fun i => lt_min (by have := (h0 i).2; positivity) (div_pos (h0 i).1 (h0 i).2)
  set B := 5 * |E| + 1 with hB
  have hB1 : 1 ≤ B := by rw [hB]; linarith [abs_nonneg E]
  set ρ := B * (1 + ∑ i, 1 / kp i) with hρ
  have hsp : ∀ i, 1 / kp i ≤ ∑ i, 1 / kp i := fun i =>
    Finset.single_le_sum (f := fun i => 1 / kp i) (fun j _ => (one_div_pos.2 (h0 j).1).le) (Finset.mem_univ i)
  have hsp0 : 0 ≤ ∑ i, 1 / kp i := Finset.sum_nonneg fun j _ => (one_div_pos.2 (h0 j).1).le
  have hρB : B ≤ ρ := by rw [hρ]; nlinarith
  set S := ∑ i, (kd i + kp i) with hS
  have hS0 : 0 ≤ S := Finset.sum_nonneg fun j _ => (add_pos (h0 j).2 (h0 j).1).le
  have hSi : ∀ i, kd i + kp i ≤ S := fun i =>
    Finset.single_le_sum (f := fun i => kd i + kp i) (fun j _ => (add_pos (h0 j).2 (h0 j).1).le) (Finset.mem_univ i)
  have hρ0 : 0 ≤ ρ := by linarith
  set β := |b| + ρ with hβ
  have hβ0 : 0 ≤ β := by positivity
  obtain ⟨K, A, u₀, hK, hA, hu₀, H⟩ := C84_torque hy hU hp ho β (|b| + S * (ρ + 1))
  set N := (K + 1 + S) * (1 + A + β + |b|) with hN
  have hN0 : 0 ≤ N := by positivity
  set Λ := ∑ i, 1 / l i with hΛ
  have hΛ0 : 0 ≤ Λ := Finset.sum_nonneg fun j _ => (one_div_pos.2 (l0 j)).le
  have hΛi : ∀ i, 1 / l i ≤ Λ := fun i => Finset.single_le_sum (f := fun i => 1 / l i) (fun j _ => (one_div_pos.2 (l0 j)).le) (Finset.mem_univ i)
  refine ⟨N, min (min 1 (u₀ / (1 + A + β))) (1 / (4 * (N * Λ + 1))), hN0, lt_min (lt_min one_pos (by positivity)) (by positivity),
    fun u h δ hu hh hδ hsum m c' hn s₀ st st' R R' τ d d' d'' hc' hs₀ hme hm hd hτ hb hb2 hd1 hd2 hi => ?_⟩
  obtain ⟨hsum, hs3⟩ := le_min_iff.1 hsum
  obtain ⟨hs1, hs2⟩ := le_min_iff.1 hsum
  set σ := u + h + δ with hσ
  have hσ0 : 0 ≤ σ := by positivity
  rw [le_div_iff₀ (by positivity)] at hs2 hs3
  have hu2 : u + (δ + (A + β) * h) ≤ u₀ := by
    have e : σ * (1 + A + β) - (u + (δ + (A + β) * h)) = h + (A + β) * (u + δ) := by rw [hσ]; ring
    have : 0 ≤ h + (A + β) * (u + δ) := by positivity
    linarith
  have hu1 : u + δ ≤ u₀ := by
    have : 0 ≤ (A + β) * h := by positivity
    linarith
  have hw : ∀ i, N * σ / l i ≤ 1 / 4 := fun i => by
    have h1 : N * σ * (1 / l i) ≤ N * σ * Λ := mul_le_mul_of_nonneg_left (hΛi i) (by positivity)
    rw [div_eq_mul_one_div]
    linarith [show σ * (4 * (N * Λ + 1)) = 4 * (N * σ * Λ) + 4 * σ by ring]
  have hb1 : ∀ t, 0 ≤ t → ∀ i, |d t i| ≤ |b| ∧ |d' t i| ≤ |b| ∧ |d'' t i| ≤ |b| := fun t ht i =>
    ⟨(hb t ht i).1.trans (le_abs_self b), (hb t ht i).2.1.trans (le_abs_self b), (hb t ht i).2.2.trans (le_abs_self b)⟩
  -- as long as the errors are at most `ρ`
  set P : ℝ → Prop := fun t => ∀ i, |(st t).q i - d t i| ≤ ρ ∧ |(st t).dq i - d' t i| ≤ ρ with hP
  have within : ∀ t, 0 ≤ t → P t → Within β c (posed s₀ (st t).q (st t).dq) := fun t ht hPt => by
    refine { within_mono (show b ≤ β by linarith [le_abs_self b]) hs₀ with q := fun i => ?_, dq := fun i => ?_ }
    · have k1 := (hPt i).1
      have k2 := (hb1 t ht i).1
      show |(st t).q i| ≤ β
      rw [abs_le] at k1 k2 ⊢
      constructor <;> linarith
    · have k1 := (hPt i).2
      have k2 := (hb1 t ht i).2.1
      show |(st t).dq i| ≤ β
      rw [abs_le] at k1 k2 ⊢
      constructor <;> linarith
  have acc : ∀ z, 0 ≤ z → (∀ w, 0 ≤ w → w ≤ z → P w) → ∀ i,
      |(st z).ddq i - d'' z i - (-(kd i * ((st z).dq i - d' z i)) - kp i * ((st z).q i - d z i))| ≤ N * σ := by
    intro z hz hPz i
    obtain ⟨k, hk1, hk2⟩ : ∃ k : ℕ, k * h ≤ z ∧ z < (k + 1) * h :=
      ⟨⌊z / h⌋₊, (le_div_iff₀ hh).1 (Nat.floor_le (by positivity)), (div_lt_iff₀ hh).1 (Nat.lt_floor_add_one _)⟩
    have hk0 : 0 ≤ (k : ℝ) * h := by positivity
    have hkh : z - k * h ≤ h := by linarith
    have hτk := hτ k
    have hmek := hme k
    generalize (k : ℝ) * h = t₀ at *
    set a : Fin c.n → ℝ := fun i => d'' t₀ i - kd i * ((st' k).dq (i.cast hn) - d' t₀ i) - kp i * ((st' k).q (i.cast hn) - d t₀ i) with ha
    have hδ1 : δ ≤ 1 := by linarith
    have m1 : ∀ i, |(st' k).q (i.cast hn) - (st t₀).q i| ≤ δ := fun i => hmek.q i i.2 (hn ▸ i.2)
    have m2 : ∀ i, |(st' k).dq (i.cast hn) - (st t₀).dq i| ≤ δ := fun i => hmek.dq i i.2 (hn ▸ i.2)
    have haα : ∀ i, |a i| ≤ |b| + S * (ρ + 1) := fun i => by
      have k1 : |(st' k).q (i.cast hn) - d t₀ i| ≤ ρ + 1 := by
        have k1 := m1 i
        have k2 := (hPz t₀ hk0 hk1 i).1
        rw [abs_le] at k1 k2 ⊢
        constructor <;> linarith
      have k2 : |(st' k).dq (i.cast hn) - d' t₀ i| ≤ ρ + 1 := by
        have k1 := m2 i
        have k2 := (hPz t₀ hk0 hk1 i).2
        rw [abs_le] at k1 k2 ⊢
        constructor <;> linarith
      have k3 := (hb1 t₀ hk0 i).2.2
      have k4 : |kd i * ((st' k).dq (i.cast hn) - d' t₀ i)| ≤ kd i * (ρ + 1) := by
        rw [abs_mul, abs_of_pos (h0 i).2]
        exact mul_le_mul_of_nonneg_left k2 (h0 i).2.le
      have k5 : |kp i * ((st' k).q (i.cast hn) - d t₀ i)| ≤ kp i * (ρ + 1) := by
        rw [abs_mul, abs_of_pos (h0 i).1]
        exact mul_le_mul_of_nonneg_left k1 (h0 i).1.le
      have k6 := mul_le_mul_of_nonneg_right (hSi i) (show 0 ≤ ρ + 1 by linarith)
      show |d'' t₀ i - kd i * ((st' k).dq (i.cast hn) - d' t₀ i) - kp i * ((st' k).q (i.cast hn) - d t₀ i)| ≤ _
      rw [abs_le] at k3 k4 k5 ⊢
      constructor <;> linarith
    have held : ∀ w, t₀ ≤ w → w ≤ z → ∀ (M C : Matrix (Fin c.n) (Fin c.n) ℝ) (G f : Fin c.n → ℝ), Returns (R' k) "M" M → Returns (R' k) "C" C →
        ReturnsVec (R' k) "G" G → ReturnsOrZero (R' k) "dl" c.dlO f → τ w = M *ᵥ a + C *ᵥ (fun i => (st' k).dq (i.cast hn)) + G + f :=
      fun w hw hw' M C G f e1 e2 e3 e4 => hτk M C G f e1 e2 e3 e4 w hw (by linarith)
    have acc0 : ∀ w, t₀ ≤ w → w ≤ z → ∀ i, |(st w).ddq i| ≤ A := fun w hw hw' i =>
      (H c' hn (st' k) hc' u hu m _ _ (hm k) a (τ w) haα (held w hw hw') _ (within t₀ hk0 (hPz t₀ hk0 hk1)) δ hδ hu1 hmek).2
        (posed s₀ (st w).q (st w).dq) (within w (hk0.trans hw) (hPz w (hk0.trans hw) hw')) (st w).ddq (hd.law w (hk0.trans hw)) i
    have sub : Icc t₀ z ⊆ Ici 0 := fun x hx => hk0.trans hx.1
    have v1 : ∀ i, |(st z).dq i - (st t₀).dq i| ≤ (A + β) * h := fun i => by
      refine (lipschitz_right hk1 ((hd.cdq i).mono sub) (fun x hx => hd.dq x (hk0.trans hx.1) i) fun x hx => acc0 x hx.1 hx.2.le i).trans ?_
      exact (mul_le_mul_of_nonneg_left hkh hA).trans (mul_le_mul_of_nonneg_right (by linarith) hh.le)
    have q1 : ∀ i, |(st z).q i - (st t₀).q i| ≤ (A + β) * h := fun i => by
      refine (lipschitz_right hk1 ((hd.cq i).mono sub) (fun x hx => hd.q x (hk0.trans hx.1) i) (b := β) fun x hx =>
        (within x (hk0.trans hx.1) (hPz x (hk0.trans hx.1) hx.2.le)).dq i).trans ?_
      exact (mul_le_mul_of_nonneg_left hkh hβ0).trans (mul_le_mul_of_nonneg_right (by linarith) hh.le)
    have hη : 0 ≤ (A + β) * h := by positivity
    have fine := (H c' hn (st' k) hc' u hu m _ _ (hm k) a (τ z) haα (held z hk1 le_rfl) (posed s₀ (st z).q (st z).dq) (within z hz (hPz z hz le_rfl))
      (δ + (A + β) * h) (by positivity) hu2 (measured_later hη hmek q1 v1)).1 (st z).ddq (hd.law z hz) i
    have r1 : |d z i - d t₀ i| ≤ |b| * h :=
      (lipschitz_of hk1 (fun x hx => hd1 x (hk0.trans hx) i) fun x hx _ => (hb1 x (hk0.trans hx) i).2.1).trans (mul_le_mul_of_nonneg_left hkh (abs_nonneg b))
    have r2 : |d' z i - d' t₀ i| ≤ |b| * h :=
      (lipschitz_of hk1 (fun x hx => hd2 x (hk0.trans hx) i) fun x hx _ => (hb1 x (hk0.trans hx) i).2.2).trans (mul_le_mul_of_nonneg_left hkh (abs_nonneg b))
    have r3 : |d'' z i - d'' t₀ i| ≤ |b| * h := by
      refine (hb2 t₀ z hk0 hk1 i).trans ((mul_le_mul_of_nonneg_right (le_abs_self b) (by linarith)).trans (mul_le_mul_of_nonneg_left hkh (abs_nonneg b)))
    have w1 : |((st' k).dq (i.cast hn) - d' t₀ i) - ((st z).dq i - d' z i)| ≤ δ + (A + β) * h + |b| * h := by
      have k1 := m2 i
      have k2 := v1 i
      rw [abs_le] at k1 k2 r2 ⊢
      constructor <;> linarith
    have w2 : |((st' k).q (i.cast hn) - d t₀ i) - ((st z).q i - d z i)| ≤ δ + (A + β) * h + |b| * h := by
      have k1 := m1 i
      have k2 := q1 i
      rw [abs_le] at k1 k2 r1 ⊢
      constructor <;> linarith
    set θ := δ + (A + β) * h + |b| * h with hθ
    have hθ0 : 0 ≤ θ := by positivity
    have w3 : |kd i * (((st' k).dq (i.cast hn) - d' t₀ i) - ((st z).dq i - d' z i))| ≤ kd i * θ := by
      rw [abs_mul, abs_of_pos (h0 i).2]
      exact mul_le_mul_of_nonneg_left w1 (h0 i).2.le
    have w4 : |kp i * (((st' k).q (i.cast hn) - d t₀ i) - ((st z).q i - d z i))| ≤ kp i * θ := by
      rw [abs_mul, abs_of_pos (h0 i).1]
      exact mul_le_mul_of_nonneg_left w2 (h0 i).1.le
    have hθσ : u + θ ≤ (1 + A + β + |b|) * σ := by
      have : (1 + A + β + |b|) * σ - (u + θ) = h + (A + β + |b|) * (u + δ) := by rw [hσ, hθ]; ring
      have : 0 ≤ h + (A + β + |b|) * (u + δ) := by positivity
      linarith
    have t1 : K * (u + (δ + (A + β) * h)) ≤ K * ((1 + A + β + |b|) * σ) :=
      mul_le_mul_of_nonneg_left (by have : 0 ≤ |b| * h := by positivity
                                    linarith) hK
    have t2 : (kd i + kp i) * θ ≤ S * ((1 + A + β + |b|) * σ) := mul_le_mul (hSi i) (by linarith) hθ0 hS0
    have t3 : |b| * h ≤ (1 + A + β + |b|) * σ := by
      have : 0 ≤ δ + (A + β) * h := by positivity
      linarith
    have t4 : N * σ = K * ((1 + A + β + |b|) * σ) + (1 + A + β + |b|) * σ + S * ((1 + A + β + |b|) * σ) := by rw [hN]; ring
    change |(st z).ddq i - (d'' t₀ i - kd i * ((st' k).dq (i.cast hn) - d' t₀ i) - kp i * ((st' k).q (i.cast hn) - d t₀ i))| ≤ _ at fine
    rw [abs_le] at fine r3 w3 w4 ⊢
    constructor <;> linarith
  have ce : ∀ i, ContinuousOn (fun t => (st t).q i - d t i) (Ici 0) := fun i =>
    (hd.cq i).sub fun z hz => (hd1 z hz i).continuousAt.continuousWithinAt
  have cv : ∀ i, ContinuousOn (fun t => (st t).dq i - d' t i) (Ici 0) := fun i =>
    (hd.cdq i).sub fun z hz => (hd2 z hz i).continuousAt.continuousWithinAt
  have bound : ∀ t, 0 ≤ t → (∀ w, 0 ≤ w → w < t → P w) → ∀ i, ((st t).dq i - d' t i) ^ 2 + kp i * ((st t).q i - d t i) ^ 2 ≤
      5 * (((st 0).dq i - d' 0 i) ^ 2 + kp i * ((st 0).q i - d 0 i) ^ 2) * Real.exp (-(l i / 2 * t)) + 12 * (N * σ / l i) ^ 2 := fun t ht hPt i =>
    damped_until (e := fun t => (st t).q i - d t i) (v := fun t => (st t).dq i - d' t i) (a := fun t => (st t).ddq i - d'' t i) (h0 i).1 (h0 i).2
      ((ce i).mono fun x hx => hx.1) ((cv i).mono fun x hx => hx.1) (fun z hz => (hd.q z hz.1 i).sub (hd1 z hz.1 i).hasDerivWithinAt)
      (fun z hz => (hd.dq z hz.1 i).sub (hd2 z hz.1 i).hasDerivWithinAt) (fun z hz => acc z hz.1 (fun w hw hw' => hPt w hw (hw'.trans_lt hz.2)) i) ht
  have strict : ∀ t, 0 ≤ t → (∀ w, 0 ≤ w → w < t → P w) → ∀ i, |(st t).q i - d t i| < ρ ∧ |(st t).dq i - d' t i| < ρ := fun t ht hPt i => by
    have k1 := bound t ht hPt i
    have hp0 := (h0 i).1
    have k2 : 0 ≤ ((st 0).dq i - d' 0 i) ^ 2 + kp i * ((st 0).q i - d 0 i) ^ 2 := by positivity
    have k3 : Real.exp (-(l i / 2 * t)) ≤ 1 := Real.exp_le_one_iff.2 (by linarith [mul_nonneg (half_pos (l0 i)).le ht])
    have k4 : 5 * (((st 0).dq i - d' 0 i) ^ 2 + kp i * ((st 0).q i - d 0 i) ^ 2) * Real.exp (-(l i / 2 * t)) ≤ 5 * |E| :=
      (mul_le_of_le_one_right (by linarith) k3).trans (by linarith [hi i, le_abs_self E])
    have k5 : (N * σ / l i) ^ 2 ≤ 1 / 16 := by
      have h2 : 0 ≤ N * σ / l i := div_nonneg (by positivity) (l0 i).le
      exact (pow_le_pow_left₀ h2 (hw i) 2).trans_eq (by norm_num)
    have k6 : ((st t).dq i - d' t i) ^ 2 + kp i * ((st t).q i - d t i) ^ 2 < B := by linarith
    exact errors_lt hp0 hB1 (hsp i) k6
  have all : ∀ t, 0 ≤ t → P t := by
    refine stays (fun i => ?_) (fun t ht hPt i => ?_) (fun t ht hPt => ?_)
    · have := strict 0 le_rfl (fun w hw hw' => absurd hw (by linarith)) i
      exact ⟨this.1.le, this.2.le⟩
    · have := strict t ht.le hPt i
      exact ⟨this.1.le, this.2.le⟩
    · have k1 : ∀ᶠ z in nhdsWithin t (Ici 0), ∀ i, |(st z).q i - d z i| < ρ ∧ |(st z).dq i - d' z i| < ρ := by
        refine Filter.eventually_all.2 fun i => ?_
        have k2 := strict t ht (fun w hw hw' => hPt w hw hw'.le) i
        exact (((ce i) t ht).abs.eventually_lt_const k2.1).and (((cv i) t ht).abs.eventually_lt_const k2.2)
      obtain ⟨ε, hε, k2⟩ := Metric.mem_nhdsWithin_iff.1 k1
      refine ⟨ε, hε, fun z hz hz' i => ?_⟩
      have k3 := k2 ⟨by rw [Metric.mem_ball, Real.dist_eq, abs_of_pos (by linarith)]; linarith, show (0 : ℝ) ≤ z by linarith⟩ i
      exact ⟨k3.1.le, k3.2.le⟩
  exact fun t ht i => bound t ht (fun w hw _ => all w hw) i

end

namespace Ex

/-- The readings of the slider, its position off by `δ`. -/
def reading (h δ : ℝ) (k : ℕ) : Spec.State (slider false) :=
  posed (slowing false 0) (fun i => (slowing false (k * h)).q i + δ) (slowing false (k * h)).dq

/-- The torques for the arm with solid links, held. -/
example (b α : ℝ) : ∃ K u₀, 0 ≤ K ∧ 0 < u₀ ∧ ∀ u, 0 ≤ u → u ≤ u₀ → ∀ (m : Machine u) (s : Spec.State solid), Within b solid s →
    ∀ a : Fin 2 → ℝ, (∀ i, |a i| ≤ α) → ∃ r, @Running fl (fileOf solid) solid s r ∧
    ∃ (M C : Matrix (Fin 2) (Fin 2) ℝ) (G f : Fin 2 → ℝ), Returns (answersOn m r) "M" M ∧ Returns (answersOn m r) "C" C ∧ ReturnsVec (answersOn m r) "G" G ∧
      ReturnsOrZero (answersOn m r) "dl" solid.dlO f ∧ ∀ w, @massOf fl solid s.q *ᵥ w + @coriolisOf fl solid s.q s.dq *ᵥ s.dq + @gravityOf fl solid s.q + frictionOf solid solid.dl s.dq =
        M *ᵥ a + C *ᵥ s.dq + G + f → ∀ i, |w i - a i| ≤ K * u := by
  let _ := fl
  have hd : Describes (fileOf solid) solid := describes_fileOf fun h => nomatch h
  have hy : Tunes (fileOf solid) solid := ⟨solid, hd, joints_arm, retuned_refl solid⟩
  obtain ⟨K, A, u₀, h0, h1, h2, H⟩ := C84_torque hy unit_solid physical_solid own_solid b α
  obtain ⟨K', u₁, _, h3, H'⟩ := C82_terms hy unit_solid b
  refine ⟨K, min u₀ u₁, h0, lt_min h2 h3, fun u hu hu' m s hs a ha => ?_⟩
  obtain ⟨hu1, hu2⟩ := le_min_iff.1 hu'
  obtain ⟨r, h⟩ := @C56_reachable fl _ _ _ hd joints_arm (retuned_refl solid) s
  have hz : Measured 0 solid solid s s := by
    have := measured_posed s (q := s.q) (v := s.dq) (q' := s.q) (v' := s.dq) (le_refl (0 : ℝ)) (fun i => by rw [sub_self, abs_zero]) fun i => by rw [sub_self, abs_zero]
    exact this
  obtain ⟨M, C, G, f, e1, e2, e3, e4, -⟩ := H' solid s s (retuned_refl _) hs 0 le_rfl hz u hu (by linarith) m _ _ (.robot h)
  refine ⟨r, h, M, C, G, f, e1, e2, e3, e4, fun w hw i => ?_⟩
  have uniq : ∀ {f : String} {k l : ℕ} {X Y : Matrix (Fin k) (Fin l) ℝ}, Returns (answersOn m r) f X → Returns (answersOn m r) f Y → X = Y := by
    rintro f k l X Y ⟨m₁, ⟨r₁, a₁⟩, b₁, c₁, d₁, e₁⟩ ⟨m₂, ⟨r₂, a₂⟩, b₂, c₂, d₂, e₂⟩
    obtain ⟨rfl, rfl⟩ := Res.ok.inj (a₁.symm.trans a₂)
    ext i j
    exact Option.some.inj (Option.some.inj ((e₁ i j).symm.trans (e₂ i j)))
  have := (H solid rfl s (retuned_refl _) u hu m _ _ (.robot h) a _ ha (fun M' C' G' f' g1 g2 g3 g4 => ?_) s hs 0 le_rfl (by linarith) hz).1 w hw i
  · rwa [add_zero] at this
  · have eG : G' = G := funext fun i => congrFun (congrFun (uniq g3 e3) i) 0
    have ef : f' = f := by
      rcases Nat.eq_zero_or_pos solid.dlO with h | h
      · rw [g4.2 h, e4.2 h]
      · exact funext fun i => congrFun (congrFun (uniq (g4.1 h) (e4.1 h)) i) 0
    rw [uniq g1 e1, uniq g2 e2, eG, ef]
    rfl

/-- The slider, told to go to `δ` and its position read `δ` too large every `h`: no torque at any reading, so the slider stops at 0. -/
example : ∃ K d₀, 0 ≤ K ∧ 0 < d₀ ∧ ∀ u h δ, 0 ≤ u → 0 < h → 0 ≤ δ → u + h + δ ≤ d₀ → ∃ R R' : ℕ → String → Mat → Prop, ∃ hu : 0 ≤ u,
    (∀ k, @OnMachine _ fl (flawless hu) (fileOf (slider false)) (slider false) (reading h δ k) (R k) (R' k)) ∧
    SampledTorque (slider false) h R' (fun k i => (reading h δ k).q i) (fun k i => (reading h δ k).dq i) (fun _ => 1) (fun _ => 2) (fun _ _ => δ) (fun _ => 0)
      (fun _ => 0) (fun _ => 0) ∧
    ∀ t, 0 ≤ t → ∀ i, ((slowing false t).q i - δ) ^ 2 ≤
      5 * (((slowing false 0).dq i) ^ 2 + ((slowing false 0).q i - δ) ^ 2) * Real.exp (-(1 / 2 / 2 * t)) + 12 * (K * (u + h + δ) / (1 / 2)) ^ 2 := by
  let _ := fl
  obtain ⟨b', hb'⟩ := within_slowing
  obtain ⟨hp, ho⟩ := inertia_slider
  have hd : Describes (fileOf (slider false)) (slider false) := describes_fileOf fun _ => ⟨rfl, rfl, rfl⟩
  obtain ⟨K, d₀, h0, h1, H⟩ := C84_follows (kp := fun _ => 1) (kd := fun _ => 2) ⟨_, hd, joints_slider false, retuned_refl _⟩ (unit_slider false) hp ho (max b' 1) 5
    (fun _ => ⟨one_pos, two_pos⟩)
  refine ⟨K, min d₀ 1, h0, lt_min h1 one_pos, fun u h δ hu hh hδ hs => ?_⟩
  obtain ⟨hs1, hs2⟩ := le_min_iff.1 hs
  have hδ1 : δ ≤ 1 := by linarith
  have hr' : ∀ k, ∃ r, Running (fileOf (slider false)) (slider false) (reading h δ k) r := fun k => C56_reachable hd (joints_slider false) (retuned_refl _) _
  choose r hr using hr'
  have hm : ∀ k, OnMachine (flawless hu) (fileOf (slider false)) (slider false) (reading h δ k) (answers (r k)) (answersOn (flawless hu) (r k)) :=
    fun k => .robot (hr k)
  have c1 : SampledTorque (slider false) h (fun k => answersOn (flawless hu) (r k)) (fun k i => (reading h δ k).q i) (fun k i => (reading h δ k).dq i) (fun _ => 1)
      (fun _ => 2) (fun _ _ => δ) (fun _ => 0) (fun _ => 0) (fun _ => 0) := by
    intro k M C G f hM hC hG hf t _ _
    obtain ⟨h1, h2, -, h3⟩ := C58_matrices (.robot (hr k)) (unit_slider false)
    have e1 := flawless_returns hu (hr k) (f := "M") (by decide) hM h1
    have e2 := flawless_returns hu (hr k) (f := "C") (by decide) hC h2
    have e3 : G = gravityOf (slider false) _ := funext fun i => congrFun (congrFun (flawless_returns hu (hr k) (f := "G") (by decide) hG h3) i) 0
    have e4 : f = frictionOf (slider false) (slider false).dl _ :=
      funext fun i => congrFun (congrFun (flawless_returns hu (hr k) (Fn.mem_library.2 ⟨.dl, Nat.one_pos, rfl⟩) (hf.1 Nat.one_pos)
        (C60_link (.robot (hr k)) Nat.one_pos).1) i) 0
    funext i
    rw [e1, e2, e3, e4, friction_slider, Pi.add_apply, Pi.add_apply, Pi.add_apply, mulVec_slider, mulVec_slider, mass_slider, coriolis_slider, gravity_slider,
      one_mul, zero_mul, add_zero, add_zero]
    show 0 = 0 - 2 * (Real.exp (-(k * h)) - 0) - 1 * (-Real.exp (-(k * h)) + δ - δ) + Real.exp (-(k * h))
    ring
  refine ⟨_, _, hu, hm, c1, fun t ht i => ?_⟩
  have := H u h δ hu hh hδ hs1 (flawless hu) _ rfl (slowing false 0) (slowing false) (reading h δ) _ _ _ _ _ _ (retuned_refl _)
    (within_mono (le_max_left _ _) (hb' 0 le_rfl))
    (fun k => measured_posed _ hδ (fun i => by rw [add_sub_cancel_left, abs_of_nonneg hδ]) fun i => by rwa [sub_self, abs_zero]) hm
    ⟨fun i z _ => (hasDerivAt_slowing' z).continuousAt.continuousWithinAt, fun i z _ => (hasDerivAt_slowing z).continuousAt.continuousWithinAt,
      fun z _ _ => (hasDerivAt_slowing' z).hasDerivWithinAt, fun z _ _ => (hasDerivAt_slowing z).hasDerivWithinAt, fun z hz => driven_slowing.law z hz⟩ c1
    (fun t _ i => ⟨by rw [abs_of_nonneg hδ]; exact le_max_of_le_right hδ1, by simp, by simp⟩) (fun t z _ hz i => by
      simp only [Pi.zero_apply, sub_zero, abs_zero]
      exact mul_nonneg (le_max_of_le_right zero_le_one) (by linarith))
    (fun _ _ _ => hasDerivAt_const _ _) (fun _ _ _ => hasDerivAt_const _ _) (fun i => by
      show (Real.exp (-0) - 0) ^ 2 + 1 * (-Real.exp (-0) - δ) ^ 2 ≤ 5
      rw [neg_zero, Real.exp_zero]
      nlinarith) t ht i
  have e : min ((2 : ℝ) / 3) (1 / 2) = 1 / 2 := by norm_num
  simp only [e, Pi.zero_apply, sub_zero, one_mul] at this
  have h2 := sq_nonneg ((slowing false t).dq i)
  linarith

end Ex

end

end Thunder
