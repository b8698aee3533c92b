import Verif.Props.RoundedUse
import Verif.Props.RoundedInputs

/-!
# Control with measured values and approximate parameters: C82
-/

open scoped Classical
open Matrix

namespace Thunder

noncomputable section

open Spec Robot SX

theorem values_all {S : Set Var} {b : ℝ} (hb : 0 ≤ b) : ∀ l : List Expr, (∀ e ∈ l, Expr.Tame S e) → ∃ H, 0 ≤ H ∧
    ∀ e ∈ l, ∀ ρ : Var → ℝ, (∀ v ∈ e.fv, |ρ v| ≤ b) → |e.eval ρ| ≤ H
  | [], _ => ⟨0, le_rfl, fun e he => absurd he List.not_mem_nil⟩
  | a :: l, h => by
    obtain ⟨H, hH, K⟩ := values_all hb l fun e he => h e (List.mem_cons_of_mem _ he)
    obtain ⟨_, H', _, E⟩ := (h a List.mem_cons_self).error hb
    refine ⟨max H H', le_max_of_le_left hH, fun e he ρ hρ => ?_⟩
    rcases List.mem_cons.1 he with rfl | he
    · exact (E.val ρ trivial hρ).trans (le_max_right _ _)
    · exact (K e he ρ hρ).trans (le_max_left _ _)

section

variable [Fl] {y : Yaml} {c : Conf}

/-- C82: as long as the variables and the symbolic parameters are bounded, so are the answers. -/
theorem C82_bounded {c₀ : Conf} (hj : JointsOk c₀) {f : String} (hf : f ∈ library c₀) (b : ℝ) :
    ∃ H, 0 ≤ H ∧ ∀ (c : Conf) (s : State c), Retuned c₀ c → Within b c s → ∀ R, Source y c s R →
      ∀ {k l : ℕ} {A : Matrix (Fin k) (Fin l) ℝ}, Returns R f A → ∀ i j, |A i j| ≤ H := by
  obtain ⟨F, hF, rfl⟩ := Fn.mem_library.1 hf
  obtain ⟨S, hS⟩ := Fn.tame (c := c₀) (f := F) hj.1 (typed_of hj)
  obtain ⟨H, hH, K⟩ := values_all (le_max_right b 0) (F.expr (base c₀) c₀).elements fun e he => by
    obtain ⟨i, -, j, -, rfl⟩ := mem_elements he
    exact hS i j
  refine ⟨H, hH, fun c s hc hb R h k l A hA i j => ?_⟩
  have hv : F.Valid c := (hc.valid F).symm ▸ hF
  obtain ⟨R₁, hR₁⟩ : ∃ R₁, OnMachine (Machine.ofFl (u := 0) (fl := id) fun x _ => by simp) y c s R R₁ := by
    cases h with
    | robot h => exact ⟨_, .robot h⟩
    | generated h => exact ⟨_, .generated h⟩
  obtain ⟨-, ρ, hρ, hkeys, -⟩ := onMachine_keys hR₁ hv
  have hself := Fn.rel_self h.pos h.typed hv
  have hG : Returns R F.name (SX.val (env c s) (F.expr (base c) c) (F.rows c) (F.cols c)) := h.gives F hv rfl rfl rfl rfl
  obtain ⟨m₁, a₁, b₁, c₁, d₁, e₁⟩ := hA
  obtain ⟨m₂, a₂, b₂, c₂, d₂, e₂⟩ := hG
  have hmm : m₁ = m₂ := by
    cases h with
    | robot h => exact answers_unique _ _ a₁ a₂
    | generated h => exact classAnswers_unique _ _ a₁ a₂
  subst hmm
  obtain rfl : F.rows c = k := b₂.symm.trans b₁
  obtain rfl : F.cols c = l := c₂.symm.trans c₁
  have hi : (i : ℕ) < (F.expr (base c) c).rows := hself.rows.symm ▸ i.2
  have hj : (j : ℕ) < (F.expr (base c) c).cols := hself.cols.symm ▸ j.2
  have hA : A i j = Expr.eval (env c s) ((F.expr (base c) c).e i j) := Option.some.inj (Option.some.inj ((e₁ i j).symm.trans (e₂ i j)))
  rw [hA]
  have hmem := getElem?_elements hi hj
  rw [hc.expr F] at hmem
  refine K _ (by rw [hc.expr F]; exact List.mem_of_getElem? hmem) (env c s) fun v hv => ?_
  obtain ⟨k, k1, k2, k3, k4⟩ := hkeys i j v hv
  exact (hb.env k1 k2 k3 k4).trans (le_max_left _ _)

/-- C82: the terms of the equation of motion, computed by a controller from measured values and approximate parameters, are close to those of the mechanism. -/
theorem C82_terms (h : Tunes y c) (hU : UnitNumeric c) (b : ℝ) :
    ∃ K u₀, 0 ≤ K ∧ 0 < u₀ ∧ ∀ (c' : Conf) (s : State c) (s' : State c'), Retuned c c' → Within b c s → ∀ δ, 0 ≤ δ → Measured δ c c' s s' →
      ∀ u, 0 ≤ u → u + δ ≤ u₀ → ∀ (m : Machine u) (R R' : String → Mat → Prop), OnMachine m y c' s' R R' →
      ∃ (M C : Matrix (Fin c.n) (Fin c.n) ℝ) (G f : Fin c.n → ℝ), Returns R' "M" M ∧ Returns R' "C" C ∧ ReturnsVec R' "G" G ∧
        ReturnsOrZero R' "dl" c.dlO f ∧ (∀ i j, |M i j - massOf c s.q i j| ≤ K * (u + δ)) ∧ (∀ i j, |C i j - coriolisOf c s.q s.dq i j| ≤ K * (u + δ)) ∧
        (∀ i, |G i - gravityOf c s.q i| ≤ K * (u + δ)) ∧ (∀ i, |f i - frictionOf c c.dl s.dq i| ≤ K * (u + δ)) ∧
        ∀ i j, |coriolisOf c s.q s.dq i j| ≤ K := by
  obtain ⟨c₀, hd, hj, hc⟩ := h
  have lib : ∀ F : Fn, F.Valid c → F.name ∈ library c₀ := fun F hF => Fn.mem_library.2 ⟨F, (hc.valid F) ▸ hF, rfl⟩
  obtain ⟨K₁, u₁, hK₁, hu₁, H₁⟩ := C81_inputs (y := y) hj (lib .M trivial) b
  obtain ⟨K₂, u₂, hK₂, hu₂, H₂⟩ := C81_inputs (y := y) hj (lib .C trivial) b
  obtain ⟨K₃, u₃, hK₃, hu₃, H₃⟩ := C81_inputs (y := y) hj (lib .G trivial) b
  obtain ⟨K₅, hK₅, H₅⟩ := C82_bounded (y := y) hj (lib .C trivial) b
  obtain ⟨K₄, u₄, hK₄, hu₄, H₄⟩ : ∃ K u₀, 0 ≤ K ∧ 0 < u₀ ∧ ∀ (c' : Conf) (s : State c) (s' : State c'), Retuned c c' → Within b c s → ∀ δ, 0 ≤ δ →
      Measured δ c c' s s' → ∀ u, 0 ≤ u → u + δ ≤ u₀ → ∀ (m : Machine u) (R₀ R R' : String → Mat → Prop), Source y c s R₀ → OnMachine m y c' s' R R' →
      ∃ f : Fin c.n → ℝ, ReturnsOrZero R' "dl" c.dlO f ∧ ∀ i, |f i - frictionOf c c.dl s.dq i| ≤ K * (u + δ) := by
    rcases Nat.eq_zero_or_pos c.dlO with hd | hd
    · refine ⟨0, 1, le_rfl, one_pos, fun c' s s' _ _ δ _ _ u _ _ m R₀ R R' _ _ => ⟨0, ⟨fun h => absurd hd (by omega), fun _ => rfl⟩, fun i => ?_⟩⟩
      have : frictionOf c c.dl s.dq i = 0 := by
        show friction _ c.dlO _ = 0
        rw [hd]; exact Finset.sum_range_zero _
      rw [this]
      simp
    · obtain ⟨K, u₀, hK, hu, H⟩ := C81_inputs (y := y) hj (lib .dl hd) b
      refine ⟨K, u₀, hK, hu, fun c' s s' hc' hs δ hδ hd' u h0 h1 m R₀ R R' h₀ hm => ?_⟩
      obtain ⟨B, h2, h3⟩ := returns_of_near (H c c' s s' hc (retuned_trans hc hc') hs δ hδ hd' u h0 h1 m R₀ R R' h₀ hm (C60_link h₀ hd).1)
      refine ⟨fun i => B i 0, ⟨fun _ => ?_, fun h => absurd h (by omega)⟩, fun i => h3 i 0⟩
      have e : B = Matrix.of fun i (_ : Fin 1) => B i 0 := by
        ext i j
        rw [Subsingleton.elim j 0]
        rfl
      exact e ▸ h2
  refine ⟨max (max (max K₁ K₂) (max K₃ K₄)) K₅, min (min u₁ u₂) (min u₃ u₄), le_max_of_le_right hK₅, lt_min (lt_min hu₁ hu₂) (lt_min hu₃ hu₄),
    fun c' s s' hc' hs δ hδ hd' u h0 h1 m R R' hm => ?_⟩
  obtain ⟨r, hr⟩ := C56_reachable hd hj hc s
  have h₀ : Source y c s (answers r) := .robot hr
  have ht := retuned_trans hc hc'
  obtain ⟨a1, a2, -, a3⟩ := C58_matrices h₀ hU
  obtain ⟨h1, h2⟩ := le_min_iff.1 h1
  obtain ⟨h1, h1'⟩ := le_min_iff.1 h1
  obtain ⟨h2, h2'⟩ := le_min_iff.1 h2
  obtain ⟨M, m1, m2⟩ := returns_of_near (H₁ c c' s s' hc ht hs δ hδ hd' u h0 h1 m _ R R' h₀ hm a1)
  obtain ⟨C, c1, c2⟩ := returns_of_near (H₂ c c' s s' hc ht hs δ hδ hd' u h0 h1' m _ R R' h₀ hm a2)
  obtain ⟨G, g1, g2⟩ := returns_of_near (H₃ c c' s s' hc ht hs δ hδ hd' u h0 h2 m _ R R' h₀ hm a3)
  obtain ⟨f, f1, f2⟩ := H₄ c' s s' hc' hs δ hδ hd' u h0 h2' m _ R R' h₀ hm
  have e : G = Matrix.of fun i (_ : Fin 1) => G i 0 := by
    ext i j
    rw [Subsingleton.elim j 0]
    rfl
  have hsum : 0 ≤ u + δ := add_nonneg h0 hδ
  refine ⟨M, C, fun i => G i 0, f, m1, c1, e ▸ g1, f1, fun i j => (m2 i j).trans ?_, fun i j => (c2 i j).trans ?_, fun i => (g2 i 0).trans ?_,
    fun i => (f2 i).trans ?_, fun i j => (H₅ c s hc hs _ h₀ a2 i j).trans (le_max_right _ _)⟩ <;> refine mul_le_mul_of_nonneg_right (le_max_of_le_left ?_) hsum
  · exact le_max_of_le_left (le_max_left _ _)
  · exact le_max_of_le_left (le_max_right _ _)
  · exact le_max_of_le_right (le_max_left _ _)
  · exact le_max_of_le_right (le_max_right _ _)

/-- C82: a controller that knows the parameters and measures positions and velocities up to `δ` drives the mechanism with the torques for the accelerations `a`:
the accelerations that result differ from those wanted by at most a constant times `u + δ`. -/
theorem C82_torque (h : Tunes y c) (hU : UnitNumeric c) (hp : Physical c.dyn c.n) (ho : ∀ i < c.n, 0 < ownInertia c.dyn i (kindOf c i)) (b : ℝ) :
    ∃ K u₀, 0 ≤ K ∧ 0 < u₀ ∧ ∀ (c' : Conf) (hn : c.n = c'.n) (s : State c) (s' : State c'), Retuned c c' → Within b c s → ∀ δ, 0 ≤ δ → Measured δ c c' s s' →
      ∀ u, 0 ≤ u → u + δ ≤ u₀ → ∀ (m : Machine u) (R R' : String → Mat → Prop), OnMachine m y c' s' R R' →
      ∃ (M C : Matrix (Fin c.n) (Fin c.n) ℝ) (G f : Fin c.n → ℝ), Returns R' "M" M ∧ Returns R' "C" C ∧ ReturnsVec R' "G" G ∧ ReturnsOrZero R' "dl" c.dlO f ∧
        ∀ a, massOf c s.q *ᵥ s.ddq + coriolisOf c s.q s.dq *ᵥ s.dq + gravityOf c s.q + frictionOf c c.dl s.dq = M *ᵥ a + C *ᵥ (sensed hn s s').dq + G + f →
          ∀ i, |s.ddq i - a i| ≤ K * (u + δ) := by
  obtain ⟨K, u₀, hK, hu, H⟩ := C82_terms h hU b
  obtain ⟨c₀, -, hj, hc⟩ := h
  have hjc := hc.joints hj
  obtain ⟨ε, hε, P⟩ := posdef_below (A := massOf c) (fun i j => continuous_massOf hjc.1 (typed_of hjc) hU (State.zero c) i j)
    (fun q v hv => massOf_pos hjc.1 (typed_of hjc) hU { State.zero c with q := q } hp ho hv) b
  have hn0 : (0 : ℝ) ≤ c.n := Nat.cast_nonneg _
  set L := c.n * |b| * K + c.n * (|b| + 1) * K + c.n * K + K + K with hL
  have hL0 : 0 ≤ L := by positivity
  refine ⟨(c.n + 1) / (ε / 2) * L, min (min u₀ 1) (ε / 2 / (c.n * K + 1)), by positivity, lt_min (lt_min hu one_pos) (by positivity),
    fun c' hn s s' hc' hs δ hδ hd' u h0 h1 m R R' hm => ?_⟩
  obtain ⟨M, C, G, f, m1, c1, g1, f1, m2, c2, g2, f2, c3⟩ := H c' s s' hc' hs δ hδ hd' u h0 (h1.trans ((min_le_left _ _).trans (min_le_left _ _))) m R R' hm
  have hδ1 : δ ≤ 1 := by linarith [h1.trans ((min_le_left _ _).trans (min_le_right _ _))]
  set w := u + δ with hw
  have hw0 : 0 ≤ w := add_nonneg h0 hδ
  have hsm : c.n * (K * w) ≤ ε / 2 := by
    have h2 : w * (c.n * K + 1) ≤ ε / 2 := (le_div_iff₀ (by positivity)).1 (h1.trans (min_le_right _ _))
    nlinarith
  have hpd := below_near (P s.q hs.q) m2 hsm
  refine ⟨M, C, G, f, m1, c1, g1, f1, fun a ha i => ?_⟩
  rw [abs_sub_comm]
  refine (solution_le (A := M) (ε := ε / 2) (ρ := L * w) (by positivity) hpd (e := a - s.ddq) (fun j => ?_) i).trans (le_of_eq (by ring))
  have hdq : ∀ i, |(sensed hn s s').dq i - s.dq i| ≤ δ := fun i => hd'.dq i i.2 (hn ▸ i.2)
  have hdq' : ∀ i, |(sensed hn s s').dq i| ≤ |b| + 1 := fun i => by
    have h2 := abs_add_le ((sensed hn s s').dq i - s.dq i) (s.dq i)
    rw [sub_add_cancel] at h2
    linarith [hdq i, (hs.dq i).trans (le_abs_self b)]
  have k1 := mulVec_near m2 (fun i => (hs.ddq i).trans (le_abs_self b)) j
  have k2 := mulVec_near c2 hdq' j
  have k6 : |(coriolisOf c s.q s.dq *ᵥ (sensed hn s s').dq) j - (coriolisOf c s.q s.dq *ᵥ s.dq) j| ≤ c.n * K * w := by
    have e : (coriolisOf c s.q s.dq *ᵥ (sensed hn s s').dq) j - (coriolisOf c s.q s.dq *ᵥ s.dq) j =
        ∑ l, coriolisOf c s.q s.dq j l * ((sensed hn s s').dq l - s.dq l) := by
      simp only [mulVec, dotProduct]
      rw [← Finset.sum_sub_distrib]
      exact Finset.sum_congr rfl fun l _ => by ring
    rw [e]
    refine (Finset.abs_sum_le_sum_abs _ _).trans ((Finset.sum_le_sum (g := fun _ => K * w) fun l _ => ?_).trans_eq ?_)
    · rw [abs_mul]
      exact mul_le_mul (c3 j l) ((hdq l).trans (by linarith)) (abs_nonneg _) hK
    · rw [Finset.sum_const, Finset.card_univ, Fintype.card_fin, nsmul_eq_mul]
      ring
  have k3 := g2 j
  have k4 := f2 j
  have k5 := congrFun ha j
  simp only [Pi.add_apply] at k5
  rw [mulVec_sub, Pi.sub_apply]
  have e1 : L * w = c.n * |b| * (K * w) + c.n * (|b| + 1) * (K * w) + c.n * K * w + K * w + K * w := by
    rw [hL]; ring
  rw [abs_le] at k1 k2 k3 k4 k6 ⊢
  constructor <;> linarith

/-- C82: a robot is driven with computed torque by such a controller, whose feedback also uses the measured values, and the motion remains within a bound.
The errors of position and velocity die out up to a term proportional to `u + δ`. -/
theorem C82_follows (h : Tunes y c) (hU : UnitNumeric c) (hp : Physical c.dyn c.n) (ho : ∀ i < c.n, 0 < ownInertia c.dyn i (kindOf c i)) (b : ℝ)
    {kp kd : Fin c.n → ℝ} (h0 : ∀ i, 0 < kp i ∧ 0 < kd i) :
    ∃ K u₀, 0 ≤ K ∧ 0 < u₀ ∧ ∀ u δ, 0 ≤ u → 0 ≤ δ → u + δ ≤ u₀ → ∀ (m : Machine u) (c' : Conf) (hn : c.n = c'.n) (st : ℝ → State c) (st' : ℝ → State c')
      (R R' : ℝ → String → Mat → Prop) (a τ d d' d'' : ℝ → Fin c.n → ℝ), Retuned c c' → (∀ t, 0 ≤ t → Measured δ c c' (st t) (st' t)) →
      (∀ t, OnMachine m y c' (st' t) (R t) (R' t)) → (∀ t, 0 ≤ t → Within b c (st t)) → Driven c st τ →
      ComputedTorque c (fun t => sensed hn (st t) (st' t)) R' a τ → Follows c (fun t => sensed hn (st t) (st' t)) kp kd d d' d'' a →
      (∀ t, 0 ≤ t → ∀ i, HasDerivAt (fun z => d z i) (d' t i) t) → (∀ t, 0 ≤ t → ∀ i, HasDerivAt (fun z => d' z i) (d'' t i) t) → ∀ t, 0 ≤ t → ∀ i,
        ((st t).dq i - d' t i) ^ 2 + kp i * ((st t).q i - d t i) ^ 2 ≤
          5 * (((st 0).dq i - d' 0 i) ^ 2 + kp i * ((st 0).q i - d 0 i) ^ 2) * Real.exp (-(min (kd i / 3) (kp i / kd i) / 2 * t)) +
            12 * ((K * (u + δ) + (kp i + kd i) * δ) / min (kd i / 3) (kp i / kd i)) ^ 2 := by
  obtain ⟨K, u₀, hK, hu, H⟩ := C82_torque (y := y) h hU hp ho b
  refine ⟨K, u₀, hK, hu, fun u δ hu0 hδ hu1 m c' hn st st' R R' a τ d d' d'' hc' hs hm hb hd hc hf hd1 hd2 t ht i => ?_⟩
  refine damped_disturbed (e := fun t => (st t).q i - d t i) (v := fun t => (st t).dq i - d' t i) (a := fun t => (st t).ddq i - d'' t i) (h0 i).1 (h0 i).2
    (fun t ht => (hd.q t ht i).sub (hd1 t ht i)) (fun t ht => (hd.dq t ht i).sub (hd2 t ht i)) (fun t ht => ?_) ht
  obtain ⟨M, C, G, f, m1, c1, g1, f1, e⟩ := H c' hn (st t) (st' t) hc' (hb t ht) δ hδ (hs t ht) u hu0 hu1 m _ _ (hm t)
  have k1 := e (a t) ((hd.law t ht).trans (hc t ht M C G f m1 c1 g1 f1)) i
  rw [hf t ht i] at k1
  have k2 : |(sensed hn (st t) (st' t)).q i - (st t).q i| ≤ δ := (hs t ht).q i i.2 (hn ▸ i.2)
  have k3 : |(sensed hn (st t) (st' t)).dq i - (st t).dq i| ≤ δ := (hs t ht).dq i i.2 (hn ▸ i.2)
  have hp' := (h0 i).1
  have hd' := (h0 i).2
  rw [abs_le] at k1 k2 k3 ⊢
  constructor <;> nlinarith

end

namespace Ex

theorem flawless_returns [Fl] {c : Conf} {y : Yaml} {s : Spec.State c} {r : Robot} {u : ℝ} (hu : 0 ≤ u) (h : Running y c s r) {f : String} (hf : f ∈ library c)
    {k l : ℕ} {A B : Matrix (Fin k) (Fin l) ℝ} (hA : Returns (answersOn (flawless hu) r) f A) (hB : Returns (answers r) f B) : A = B := by
  have hB' : Returns (answersOn (flawless hu) r) f B :=
    C76_exact (m := flawless le_rfl) (R' := answersOn (flawless hu) r) (.robot h) hf hB
  obtain ⟨m₁, ⟨r₁, a₁⟩, b₁, c₁, d₁, e₁⟩ := hA
  obtain ⟨m₂, ⟨r₂, a₂⟩, b₂, c₂, d₂, e₂⟩ := hB'
  obtain ⟨rfl, rfl⟩ := Res.ok.inj (a₁.symm.trans a₂)
  ext i j
  exact Option.some.inj (Option.some.inj ((e₁ i j).symm.trans (e₂ i j)))

/-- The slider, its position read with the error `δ`. -/
def misread (δ t : ℝ) : Spec.State (slider false) := { slowing false t with q := fun i => (slowing false t).q i + δ }

theorem measured_misread {δ : ℝ} (hδ : 0 ≤ δ) (t : ℝ) : Measured δ (slider false) (slider false) (slowing false t) (misread δ t) := by
  have hz : ∀ x : ℝ, |x - x| ≤ δ := fun x => by rwa [sub_self, abs_zero]
  exact ⟨fun i _ _ => by
      show |(slowing false t).q _ + δ - (slowing false t).q _| ≤ δ
      rw [add_sub_cancel_left, abs_of_nonneg hδ], fun i _ _ => hz _, fun i _ _ => hz _, fun i _ _ => hz _, fun i _ _ => hz _, fun i _ _ => hz _, fun i => hz _,
    fun i _ _ => hz _, fun i _ _ => hz _, fun i _ _ => hz _, fun i _ _ => hz _, fun i _ _ => hz _, fun i _ _ => hz _, fun i _ _ => hz _,
    fun i _ _ => hz _, fun i _ _ => hz _, fun i _ _ => hz _, fun i _ _ => hz _, fun i _ _ => hz _, fun i _ _ => hz _⟩

/-- The answers for the arm with solid links are bounded. -/
example : ∃ H, 0 ≤ H ∧ ∀ s : Spec.State solid, Within 5 solid s → ∀ i j, |@massOf fl solid s.q i j| ≤ H := by
  let _ := fl
  have hd : Describes (fileOf solid) solid := describes_fileOf fun h => nomatch h
  obtain ⟨H, h0, h1⟩ := C82_bounded (y := fileOf solid) (c₀ := solid) joints_arm (f := "M") (by decide) 5
  refine ⟨H, h0, fun s hs i j => ?_⟩
  obtain ⟨r, h⟩ := C56_reachable hd joints_arm (retuned_refl solid) s
  exact h1 _ s (retuned_refl _) hs _ (.robot h) (C58_matrices (.robot h) unit_solid).1 i j

/-- A controller that reads the position of the slider with the error `δ` is told to bring it to `δ`. It gives no torque, the slider stops at 0, and the
bound of `C82_follows` holds for this motion. -/
example : ∃ K u₀, 0 ≤ K ∧ 0 < u₀ ∧ ∀ u δ, 0 ≤ u → 0 ≤ δ → u + δ ≤ u₀ → ∃ R R' : ℝ → String → Mat → Prop, ∃ hu : 0 ≤ u,
    (∀ t, @OnMachine _ fl (flawless hu) (fileOf (slider false)) (slider false) (misread δ t) (R t) (R' t)) ∧
    ComputedTorque (slider false) (fun t => sensed rfl (slowing false t) (misread δ t)) R' (fun t => (slowing false t).ddq) (fun _ => 0) ∧
    ∀ t, 0 ≤ t → ∀ i, ((slowing false t).q i - δ) ^ 2 ≤
      5 * (((slowing false 0).dq i) ^ 2 + ((slowing false 0).q i - δ) ^ 2) * Real.exp (-(1 / 2 / 2 * t)) + 12 * ((K * (u + δ) + 3 * δ) / (1 / 2)) ^ 2 := by
  let _ := fl
  obtain ⟨b, hb⟩ := within_slowing
  obtain ⟨hp, ho⟩ := inertia_slider
  have hd : Describes (fileOf (slider false)) (slider false) := describes_fileOf fun _ => ⟨rfl, rfl, rfl⟩
  obtain ⟨K, u₀, h0, h1, H⟩ := C82_follows (kp := fun _ => 1) (kd := fun _ => 2) ⟨_, hd, joints_slider false, retuned_refl _⟩ (unit_slider false) hp ho b
    (fun _ => ⟨one_pos, two_pos⟩)
  refine ⟨K, u₀, h0, h1, fun u δ hu hδ hu' => ?_⟩
  have hr' : ∀ t, ∃ r, Running (fileOf (slider false)) (slider false) (misread δ t) r := fun t => C56_reachable hd (joints_slider false) (retuned_refl _) (misread δ t)
  choose r hr using hr'
  have hm : ∀ t, OnMachine (flawless hu) (fileOf (slider false)) (slider false) (misread δ t) (answers (r t)) (answersOn (flawless hu) (r t)) :=
    fun t => .robot (hr t)
  have c1 : ComputedTorque (slider false) (fun t => sensed rfl (slowing false t) (misread δ t)) (fun t => answersOn (flawless hu) (r t))
      (fun t => (slowing false t).ddq) (fun _ => 0) := by
    intro t ht M C G f hM hC hG hf
    obtain ⟨h1, h2, -, h3⟩ := C58_matrices (.robot (hr t)) (unit_slider false)
    have e1 := flawless_returns hu (hr t) (f := "M") (by decide) hM h1
    have e2 := flawless_returns hu (hr t) (f := "C") (by decide) hC h2
    have e3 : G = gravityOf (slider false) (misread δ t).q := funext fun i => congrFun (congrFun (flawless_returns hu (hr t) (f := "G") (by decide) hG h3) i) 0
    have e4 : f = frictionOf (slider false) (slider false).dl (misread δ t).dq :=
      funext fun i => congrFun (congrFun (flawless_returns hu (hr t) (Fn.mem_library.2 ⟨.dl, Nat.one_pos, rfl⟩) (hf.1 Nat.one_pos)
        (C60_link (.robot (hr t)) Nat.one_pos).1) i) 0
    funext i
    rw [e1, e2, e3, e4, friction_slider, Pi.add_apply, Pi.add_apply, Pi.add_apply, mulVec_slider, mulVec_slider, mass_slider, coriolis_slider, gravity_slider,
      one_mul, zero_mul, add_zero, add_zero]
    exact (neg_add_cancel _).symm
  have c2 : Follows (slider false) (fun t => sensed rfl (slowing false t) (misread δ t)) (fun _ => 1) (fun _ => 2) (fun _ _ => δ) (fun _ => 0) (fun _ => 0)
      (fun t => (slowing false t).ddq) := by
    intro t _ i
    show -Real.exp (-t) = 0 - 2 * (Real.exp (-t) - 0) - 1 * (-Real.exp (-t) + δ - δ)
    ring
  refine ⟨_, _, hu, hm, c1, fun t ht i => ?_⟩
  have := H u δ hu hδ hu' (flawless hu) _ rfl _ _ _ _ _ _ _ _ _ (retuned_refl _) (fun t _ => measured_misread hδ t) hm hb driven_slowing c1 c2
    (fun _ _ _ => hasDerivAt_const _ _) (fun _ _ _ => hasDerivAt_const _ _) t ht i
  have e : min ((2 : ℝ) / 3) (1 / 2) = 1 / 2 := by norm_num
  simp only [e, Pi.zero_apply, sub_zero, one_mul, show (1 : ℝ) + 2 = 3 by norm_num] at this
  have h2 := sq_nonneg ((slowing false t).dq i)
  linarith

end Ex

end

end Thunder
