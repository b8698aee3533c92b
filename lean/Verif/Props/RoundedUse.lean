import Verif.Lemmas.Perturb
import Verif.Props.Rounding
import Verif.Props.Torque

/-!
# Simulation and control with rounded answers: C80
-/

open scoped Classical
open Matrix

namespace Thunder

noncomputable section

open Spec Robot SX

section

variable [Fl] {y : Yaml} {c : Conf}

omit [Fl] in
/-- An answer that is nearly `A` is the answer of some matrix. -/
theorem returns_of_near {ε : ℝ} {R : String → Mat → Prop} {f : String} {k l : ℕ} {A : Matrix (Fin k) (Fin l) ℝ} (h : ReturnsNear ε R f A) :
    ∃ B : Matrix (Fin k) (Fin l) ℝ, Returns R f B ∧ ∀ i j, |B i j - A i j| ≤ ε := by
  obtain ⟨mat, e1, e2, e3, e4, e5⟩ := h
  choose B hB hn using e5
  exact ⟨Matrix.of B, ⟨mat, e1, e2, e3, e4, hB⟩, hn⟩

/-- C80: the terms of the equation of motion computed on a machine, together: one constant bounds the errors of all of them. -/
theorem C80_terms (h : Tunes y c) (hU : UnitNumeric c) (b : ℝ) :
    ∃ K u₀, 0 ≤ K ∧ 0 < u₀ ∧ ∀ s : State c, Within b c s → ∀ u, 0 ≤ u → u ≤ u₀ → ∀ (m : Machine u) (R R' : String → Mat → Prop), OnMachine m y c s R R' →
      ∃ (M C : Matrix (Fin c.n) (Fin c.n) ℝ) (G f : Fin c.n → ℝ), Returns R' "M" M ∧ Returns R' "C" C ∧ ReturnsVec R' "G" G ∧
        ReturnsOrZero R' "dl" c.dlO f ∧ (∀ i j, |M i j - massOf c s.q i j| ≤ K * u) ∧ (∀ i j, |C i j - coriolisOf c s.q s.dq i j| ≤ K * u) ∧
        (∀ i, |G i - gravityOf c s.q i| ≤ K * u) ∧ ∀ i, |f i - frictionOf c c.dl s.dq i| ≤ K * u := by
  obtain ⟨c₀, -, hj, hc⟩ := h
  have lib : ∀ F : Fn, F.Valid c → F.name ∈ library c₀ := fun F hF => Fn.mem_library.2 ⟨F, (hc.valid F) ▸ hF, rfl⟩
  obtain ⟨K₁, u₁, hK₁, hu₁, H₁⟩ := C76 (y := y) hj (lib .M trivial) b
  obtain ⟨K₂, u₂, hK₂, hu₂, H₂⟩ := C76 (y := y) hj (lib .C trivial) b
  obtain ⟨K₃, u₃, hK₃, hu₃, H₃⟩ := C76 (y := y) hj (lib .G trivial) b
  obtain ⟨K₄, u₄, hK₄, hu₄, H₄⟩ : ∃ K u₀, 0 ≤ K ∧ 0 < u₀ ∧ ∀ s : State c, Within b c s → ∀ u, 0 ≤ u → u ≤ u₀ → ∀ (m : Machine u) (R R' : String → Mat → Prop),
      OnMachine m y c s R R' → ∃ f : Fin c.n → ℝ, ReturnsOrZero R' "dl" c.dlO f ∧ ∀ i, |f i - frictionOf c c.dl s.dq i| ≤ K * u := by
    rcases Nat.eq_zero_or_pos c.dlO with hd | hd
    · refine ⟨0, 1, le_rfl, one_pos, fun s _ u _ _ m R R' _ => ⟨0, ⟨fun h => absurd hd (by omega), fun _ => rfl⟩, fun i => ?_⟩⟩
      have : frictionOf c c.dl s.dq i = 0 := by
        show friction _ c.dlO _ = 0
        rw [hd]; exact Finset.sum_range_zero _
      rw [this]
      simp
    · obtain ⟨K, u₀, hK, hu, H⟩ := C76 (y := y) hj (lib .dl hd) b
      refine ⟨K, u₀, hK, hu, fun s hs u h0 h1 m R R' hm => ?_⟩
      obtain ⟨B, h2, h3⟩ := returns_of_near (H c s hc hs u h0 h1 m R R' hm (C60_link (onMachine hm (f := .M) trivial).1 hd).1)
      refine ⟨fun i => B i 0, ⟨fun _ => ?_, fun h => absurd h (by omega)⟩, fun i => h3 i 0⟩
      have e : B = Matrix.of fun i (_ : Fin 1) => B i 0 := by
        ext i j
        rw [Subsingleton.elim j 0]
        rfl
      exact e ▸ h2
  refine ⟨max (max K₁ K₂) (max K₃ K₄), min (min u₁ u₂) (min u₃ u₄), le_max_of_le_left (le_max_of_le_left hK₁), lt_min (lt_min hu₁ hu₂) (lt_min hu₃ hu₄),
    fun s hs u h0 h1 m R R' hm => ?_⟩
  have hS := (onMachine hm (f := .M) trivial).1
  obtain ⟨a1, a2, -, a3⟩ := C58_matrices hS hU
  obtain ⟨h1, h2⟩ := le_min_iff.1 h1
  obtain ⟨h1, h1'⟩ := le_min_iff.1 h1
  obtain ⟨h2, h2'⟩ := le_min_iff.1 h2
  obtain ⟨M, m1, m2⟩ := returns_of_near (H₁ c s hc hs u h0 h1 m R R' hm a1)
  obtain ⟨C, c1, c2⟩ := returns_of_near (H₂ c s hc hs u h0 h1' m R R' hm a2)
  obtain ⟨G, g1, g2⟩ := returns_of_near (H₃ c s hc hs u h0 h2 m R R' hm a3)
  obtain ⟨f, f1, f2⟩ := H₄ s hs u h0 h2' m R R' hm
  have e : G = Matrix.of fun i (_ : Fin 1) => G i 0 := by
    ext i j
    rw [Subsingleton.elim j 0]
    rfl
  refine ⟨M, C, fun i => G i 0, f, m1, c1, e ▸ g1, f1, fun i j => (m2 i j).trans ?_, fun i j => (c2 i j).trans ?_, fun i => (g2 i 0).trans ?_,
    fun i => (f2 i).trans ?_⟩ <;> refine mul_le_mul_of_nonneg_right ?_ h0
  · exact le_max_of_le_left (le_max_left _ _)
  · exact le_max_of_le_left (le_max_right _ _)
  · exact le_max_of_le_right (le_max_left _ _)
  · exact le_max_of_le_right (le_max_right _ _)

/-- C80: forward dynamics.  Torques `τ` give the accelerations `ddq`.  A simulator solves the equation of motion made of the computed terms for the
accelerations `a`, and leaves a residual of at most `r`: the accelerations are off by at most a constant times the error of an operation plus `r`.  The
equation has a solution without residual. -/
theorem C80_forward (h : Tunes y c) (hU : UnitNumeric c) (hp : Physical c.dyn c.n) (ho : ∀ i < c.n, 0 < ownInertia c.dyn i (kindOf c i)) (b : ℝ) :
    ∃ K u₀, 0 ≤ K ∧ 0 < u₀ ∧ ∀ s : State c, Within b c s → ∀ u, 0 ≤ u → u ≤ u₀ → ∀ (m : Machine u) (R R' : String → Mat → Prop), OnMachine m y c s R R' →
      ∀ τ, massOf c s.q *ᵥ s.ddq + coriolisOf c s.q s.dq *ᵥ s.dq + gravityOf c s.q + frictionOf c c.dl s.dq = τ →
      ∃ (M C : Matrix (Fin c.n) (Fin c.n) ℝ) (G f : Fin c.n → ℝ), Returns R' "M" M ∧ Returns R' "C" C ∧ ReturnsVec R' "G" G ∧ ReturnsOrZero R' "dl" c.dlO f ∧
        (∃ a, M *ᵥ a + C *ᵥ s.dq + G + f = τ) ∧
        ∀ a r, (∀ i, |(M *ᵥ a + C *ᵥ s.dq + G + f - τ) i| ≤ r) → ∀ i, |a i - s.ddq i| ≤ K * (u + r) := by
  obtain ⟨K, u₀, hK, hu, H⟩ := C80_terms h hU b
  obtain ⟨c₀, -, hj, hc⟩ := h
  have hjc := hc.joints hj
  obtain ⟨ε, hε, P⟩ := posdef_below (A := massOf c) (fun i j => continuous_massOf hjc.1 (typed_of hjc) hU (State.zero c) i j)
    (fun q v hv => massOf_pos hjc.1 (typed_of hjc) hU { State.zero c with q := q } hp ho hv) b
  have hn : (0 : ℝ) ≤ c.n := Nat.cast_nonneg _
  set L := (c.n * |b| * K + c.n * |b| * K + K + K + 1) with hL
  have hL0 : 0 ≤ L := by positivity
  refine ⟨(c.n + 1) / (ε / 2) * L, min u₀ (ε / 2 / (c.n * K + 1)), by positivity, lt_min hu (by positivity), fun s hs u h0 h1 m R R' hm τ hτ => ?_⟩
  obtain ⟨M, C, G, f, m1, c1, g1, f1, m2, c2, g2, f2⟩ := H s hs u h0 (h1.trans (min_le_left _ _)) m R R' hm
  have hsm : c.n * (K * u) ≤ ε / 2 := by
    have h2 : u * (c.n * K + 1) ≤ ε / 2 := (le_div_iff₀ (by positivity)).1 (h1.trans (min_le_right _ _))
    nlinarith
  have hpd := below_near (P s.q hs.q) m2 hsm
  have hpd' : ∀ v, v ≠ 0 → 0 < v ⬝ᵥ M *ᵥ v := fun v hv => by
    refine lt_of_lt_of_le (mul_pos (by positivity) ?_) (hpd v)
    obtain ⟨i, hi⟩ := Function.ne_iff.1 hv
    exact Finset.sum_pos' (fun i _ => mul_self_nonneg _) ⟨i, Finset.mem_univ i, mul_self_pos.2 hi⟩
  have hdet : IsUnit M.det := isUnit_iff_ne_zero.2 (det_of_posdef hpd')
  refine ⟨M, C, G, f, m1, c1, g1, f1, ⟨M⁻¹ *ᵥ (τ - C *ᵥ s.dq - G - f), ?_⟩, fun a r hr i => ?_⟩
  · rw [mulVec_mulVec, mul_nonsing_inv _ hdet, one_mulVec]
    abel
  have hr0 : 0 ≤ r := (abs_nonneg _).trans (hr i)
  refine (solution_le (A := M) (ε := ε / 2) (ρ := L * (u + r)) (by positivity) hpd (e := a - s.ddq) (fun j => ?_) i).trans (le_of_eq (by ring))
  have k1 := mulVec_near m2 (fun i => (hs.ddq i).trans (le_abs_self b)) j
  have k2 := mulVec_near c2 (fun i => (hs.dq i).trans (le_abs_self b)) j
  have k3 := g2 j
  have k4 := f2 j
  have k5 := hr j
  rw [← hτ] at k5
  simp only [Pi.add_apply, Pi.sub_apply] at k5
  rw [mulVec_sub, Pi.sub_apply]
  have e1 : L * (u + r) = c.n * |b| * (K * u) + c.n * |b| * (K * u) + K * u + K * u + r + u + (c.n * |b| * K + c.n * |b| * K + K + K) * r := by
    rw [hL]; ring
  have e2 : 0 ≤ (c.n * |b| * K + c.n * |b| * K + K + K) * r := by positivity
  rw [abs_le] at k1 k2 k3 k4 k5 ⊢
  constructor <;> linarith

/-- C80: inverse dynamics.  A controller drives the mechanism with the torques made of the computed terms and the accelerations `a` wanted: the accelerations
`ddq` that result differ from those wanted by at most a constant times the error of an operation. -/
theorem C80_torque (h : Tunes y c) (hU : UnitNumeric c) (hp : Physical c.dyn c.n) (ho : ∀ i < c.n, 0 < ownInertia c.dyn i (kindOf c i)) (b : ℝ) :
    ∃ K u₀, 0 ≤ K ∧ 0 < u₀ ∧ ∀ s : State c, Within b c s → ∀ u, 0 ≤ u → u ≤ u₀ → ∀ (m : Machine u) (R R' : String → Mat → Prop), OnMachine m y c s R R' →
      ∃ (M C : Matrix (Fin c.n) (Fin c.n) ℝ) (G f : Fin c.n → ℝ), Returns R' "M" M ∧ Returns R' "C" C ∧ ReturnsVec R' "G" G ∧ ReturnsOrZero R' "dl" c.dlO f ∧
        ∀ a, massOf c s.q *ᵥ s.ddq + coriolisOf c s.q s.dq *ᵥ s.dq + gravityOf c s.q + frictionOf c c.dl s.dq = M *ᵥ a + C *ᵥ s.dq + G + f →
          ∀ i, |s.ddq i - a i| ≤ K * u := by
  obtain ⟨K, u₀, hK, hu, H⟩ := C80_forward (y := y) h hU hp ho b
  refine ⟨K, u₀, hK, hu, fun s hs u h0 h1 m R R' hm => ?_⟩
  obtain ⟨M, C, G, f, m1, c1, g1, f1, -, e⟩ := H s hs u h0 h1 m R R' hm _ rfl
  refine ⟨M, C, G, f, m1, c1, g1, f1, fun a ha i => ?_⟩
  have := e a 0 (fun i => by rw [← ha, sub_self]; simp) i
  rwa [add_zero, abs_sub_comm] at this

/-- C80: a robot is driven with computed torque, the terms being computed on a machine, and the motion remains within a bound.  Every joint follows the desired
motion: the errors of position and velocity die out up to a term proportional to the error of an operation.  The constant does not depend on the motions. -/
theorem C80_follows (h : Tunes y c) (hU : UnitNumeric c) (hp : Physical c.dyn c.n) (ho : ∀ i < c.n, 0 < ownInertia c.dyn i (kindOf c i)) (b : ℝ)
    {kp kd : Fin c.n → ℝ} (h0 : ∀ i, 0 < kp i ∧ 0 < kd i) :
    ∃ K u₀, 0 ≤ K ∧ 0 < u₀ ∧ ∀ u, 0 ≤ u → u ≤ u₀ → ∀ (m : Machine u) (st : ℝ → State c) (R R' : ℝ → String → Mat → Prop)
      (a τ d d' d'' : ℝ → Fin c.n → ℝ), (∀ t, OnMachine m y c (st t) (R t) (R' t)) → (∀ t, 0 ≤ t → Within b c (st t)) → Driven c st τ →
      ComputedTorque c st R' a τ → Follows c st kp kd d d' d'' a → (∀ t, 0 ≤ t → ∀ i, HasDerivAt (fun z => d z i) (d' t i) t) →
      (∀ t, 0 ≤ t → ∀ i, HasDerivAt (fun z => d' z i) (d'' t i) t) → ∀ t, 0 ≤ t → ∀ i,
        ((st t).dq i - d' t i) ^ 2 + kp i * ((st t).q i - d t i) ^ 2 ≤
          5 * (((st 0).dq i - d' 0 i) ^ 2 + kp i * ((st 0).q i - d 0 i) ^ 2) * Real.exp (-(min (kd i / 3) (kp i / kd i) / 2 * t)) +
            12 * (K * u / min (kd i / 3) (kp i / kd i)) ^ 2 := by
  obtain ⟨K, u₀, hK, hu, H⟩ := C80_torque (y := y) h hU hp ho b
  refine ⟨K, u₀, hK, hu, fun u hu0 hu1 m st R R' a τ d d' d'' hm hb hd hc hf hd1 hd2 t ht i => ?_⟩
  refine damped_disturbed (e := fun t => (st t).q i - d t i) (v := fun t => (st t).dq i - d' t i) (a := fun t => (st t).ddq i - d'' t i) (h0 i).1 (h0 i).2
    (fun t ht => (hd.q t ht i).sub (hd1 t ht i)) (fun t ht => (hd.dq t ht i).sub (hd2 t ht i)) (fun t ht => ?_) ht
  obtain ⟨M, C, G, f, m1, c1, g1, f1, e⟩ := H (st t) (hb t ht) u hu0 hu1 m _ _ (hm t)
  have := e (a t) ((hd.law t ht).trans (hc t ht M C G f m1 c1 g1 f1)) i
  rw [hf t ht i] at this
  refine le_of_eq_of_le ?_ this
  congr 1
  ring

end

namespace Ex

open Spec Robot

/-- A machine whose operations may have errors of at most `u`, and which happens to make none. -/
def flawless {u : ℝ} (hu : 0 ≤ u) : Machine u := .ofFl (fl := id) fun x => by
  intro _
  show |x - x| ≤ u * max |x| u
  rw [sub_self, abs_zero]
  exact mul_nonneg hu (le_max_of_le_left (abs_nonneg x))

/-- The arm with solid links: the accelerations computed from the rounded terms have errors of the order of those of the operations. -/
example (b : ℝ) : ∃ K u₀, 0 ≤ K ∧ 0 < u₀ ∧ ∀ s : Spec.State solid, Within b solid s → ∀ u, 0 ≤ u → u ≤ u₀ → ∀ m : Machine u, ∃ r, @Running fl (fileOf solid) solid s r ∧
    ∃ (M C : Matrix (Fin 2) (Fin 2) ℝ) (G f a : Fin 2 → ℝ), Returns (answersOn m r) "M" M ∧ Returns (answersOn m r) "C" C ∧ ReturnsVec (answersOn m r) "G" G ∧
      M *ᵥ a + C *ᵥ s.dq + G + f = @massOf fl solid s.q *ᵥ s.ddq + @coriolisOf fl solid s.q s.dq *ᵥ s.dq + @gravityOf fl solid s.q + frictionOf solid solid.dl s.dq ∧
      ∀ i, |a i - s.ddq i| ≤ K * u := by
  let _ := fl
  have hd : Describes (fileOf solid) solid := describes_fileOf fun h => nomatch h
  obtain ⟨K, u₀, h0, h1, H⟩ := C80_forward ⟨solid, hd, joints_arm, retuned_refl solid⟩ unit_solid physical_solid own_solid b
  refine ⟨K, u₀, h0, h1, fun s hs u hu hu' m => ?_⟩
  obtain ⟨r, h⟩ := @C56_reachable fl _ _ _ hd joints_arm (retuned_refl solid) s
  obtain ⟨M, C, G, f, e1, e2, e3, -, ⟨a, e4⟩, e5⟩ := H s hs u hu hu' m _ _ (.robot h) _ rfl
  refine ⟨r, h, M, C, G, f, a, e1, e2, e3, e4, fun i => ?_⟩
  have := e5 a 0 (fun i => by rw [e4, sub_self]; simp) i
  rwa [add_zero] at this

theorem within_slowing : ∃ b, ∀ t, 0 ≤ t → Within b (slider false) (slowing false t) := by
  obtain ⟨b, hb⟩ := C76_bounded (slowing false 0)
  have h1 : ∀ t, 0 ≤ t → |Real.exp (-t)| ≤ b := fun t ht => by
    refine le_trans ?_ (hb.dq ⟨0, by decide⟩)
    show |Real.exp (-t)| ≤ |Real.exp (-0)|
    rw [abs_of_pos (Real.exp_pos _), abs_of_pos (Real.exp_pos _)]
    exact Real.exp_le_exp.2 (by linarith)
  have h2 : ∀ t, 0 ≤ t → |-Real.exp (-t)| ≤ b := fun t ht => (abs_neg _).trans_le (h1 t ht)
  exact ⟨b, fun t ht => { hb with
    q := fun _ => h2 t ht, dq := fun _ => h1 t ht, ddq := fun _ => h2 t ht, x := fun _ => h2 t ht, dx := fun _ => h1 t ht, ddx := fun _ => h2 t ht }⟩

/-- The slider on its way from -1 to 0 meets the conditions of `C80_follows`. -/
example : ∃ K u₀, 0 ≤ K ∧ 0 < u₀ ∧ ∀ u, 0 ≤ u → u ≤ u₀ → ∃ R R' : ℝ → String → Mat → Prop, ∃ hu : 0 ≤ u,
    (∀ t, @OnMachine _ fl (flawless hu) (fileOf (slider false)) (slider false) (slowing false t) (R t) (R' t)) ∧
    ComputedTorque (slider false) (slowing false) R' (fun t => (slowing false t).ddq) (fun _ => 0) ∧ (slowing false 0).q ≠ 0 ∧
    ∀ t, 0 ≤ t → ∀ i, ((slowing false t).q i) ^ 2 ≤
      5 * (((slowing false 0).dq i) ^ 2 + ((slowing false 0).q i) ^ 2) * Real.exp (-(1 / 2 / 2 * t)) + 12 * (K * u / (1 / 2)) ^ 2 := by
  let _ := fl
  obtain ⟨b, hb⟩ := within_slowing
  obtain ⟨hp, ho⟩ := inertia_slider
  have hd : Describes (fileOf (slider false)) (slider false) := describes_fileOf fun _ => ⟨rfl, rfl, rfl⟩
  obtain ⟨K, u₀, h0, h1, H⟩ := C80_follows (kp := fun _ => 1) (kd := fun _ => 2) ⟨_, hd, joints_slider false, retuned_refl _⟩ (unit_slider false) hp ho b
    (fun _ => ⟨one_pos, two_pos⟩)
  refine ⟨K, u₀, h0, h1, fun u hu hu' => ?_⟩
  choose r hr using reachable_slowing false
  have hs : ∀ t, Source (fileOf (slider false)) (slider false) (slowing false t) (answers (r t)) := fun t => .robot (hr t)
  have hm : ∀ t, OnMachine (flawless hu) (fileOf (slider false)) (slider false) (slowing false t) (answers (r t)) (answersOn (flawless hu) (r t)) :=
    fun t => .robot (hr t)
  obtain ⟨c1, c2, -⟩ := controllers_slowing hs
  have hdet : ∀ t f k l (A B : Matrix (Fin k) (Fin l) ℝ), f ∈ library (slider false) → Returns (answersOn (flawless hu) (r t)) f A →
      Returns (answers (r t)) f B → Returns (answers (r t)) f A := by
    intro t f k l A B hf hA hB
    have hB' : Returns (answersOn (flawless hu) (r t)) f B :=
      C76_exact (m := flawless le_rfl) (R' := answersOn (flawless hu) (r t)) (.robot (hr t)) hf hB
    obtain ⟨m₁, ⟨r₁, a₁⟩, b₁, c₁, d₁, e₁⟩ := hA
    obtain ⟨m₂, ⟨r₂, a₂⟩, b₂, c₂, d₂, e₂⟩ := hB'
    obtain ⟨rfl, rfl⟩ := Res.ok.inj (a₁.symm.trans a₂)
    have : A = B := by
      ext i j
      exact Option.some.inj (Option.some.inj ((e₁ i j).symm.trans (e₂ i j)))
    exact this ▸ hB
  have c1' : ComputedTorque (slider false) (slowing false) (fun t => answersOn (flawless hu) (r t)) (fun t => (slowing false t).ddq) (fun _ => 0) := by
    intro t ht M C G f hM hC hG hf
    obtain ⟨h1, h2, -, h3⟩ := C58_matrices (hs t) (unit_slider false)
    exact c1 t ht M C G f (hdet t _ _ _ _ _ (by decide) hM h1) (hdet t _ _ _ _ _ (by decide) hC h2)
      (hdet t _ _ _ _ _ (by decide) hG h3)
      ⟨fun h => hdet t _ _ _ _ _ (Fn.mem_library.2 ⟨.dl, Nat.one_pos, rfl⟩) (hf.1 h) (C60_link (hs t) Nat.one_pos).1, hf.2⟩
  refine ⟨_, _, hu, hm, c1', fun e => ?_, fun t ht i => ?_⟩
  · have h0 : -Real.exp (-0) = 0 := congrFun e ⟨0, by decide⟩
    simp at h0
  · have := H u hu hu' (flawless hu) _ _ _ _ _ _ _ _ hm hb driven_slowing c1' c2 (fun _ _ _ => hasDerivAt_const _ _) (fun _ _ _ => hasDerivAt_const _ _) t ht i
    have e : min ((2 : ℝ) / 3) (1 / 2) = 1 / 2 := by norm_num
    simp only [e, Pi.zero_apply, sub_zero, one_mul] at this
    have h2 := sq_nonneg ((slowing false t).dq i)
    linarith

end Ex

end

end Thunder
