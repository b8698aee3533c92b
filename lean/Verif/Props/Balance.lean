import Verif.Lemmas.Posdef
import Verif.Props.System
import Mathlib.Analysis.Calculus.MeanValue
import Mathlib.Analysis.Calculus.Deriv.Pow

/-!
# Forward dynamics and energy balance of a robot built from a file: C63, C64

The matrices and torques that are returned determine the accelerations (C63), and a robot moving according to them exchanges energy only with its
inputs and loses it by friction (C64).
-/

open scoped Classical
open Matrix

namespace Thunder

noncomputable section

open Spec Robot SX

section

variable [Fl] {y : Yaml} {c : Conf} {s : State c} {R : String → Mat → Prop}

/-! ## C63 -/

/-- C63: there is only one answer for a name. -/
theorem C63_determined (h : Source y c s R) {f : String} {m n : ℕ} {A B : Matrix (Fin m) (Fin n) ℝ} (hA : Returns R f A) (hB : Returns R f B) : A = B := by
  obtain ⟨m₁, a₁, -, -, -, b₁⟩ := hA
  obtain ⟨m₂, a₂, -, -, -, b₂⟩ := hB
  have : m₁ = m₂ := by
    cases h with
    | robot h =>
      obtain ⟨_, e₁⟩ := a₁
      obtain ⟨_, e₂⟩ := a₂
      rw [e₁] at e₂
      exact (Res.ok.inj e₂).1
    | generated h => exact Wrap.Got.value.inj (a₁.symm.trans a₂)
  subst this
  ext i j
  exact Option.some.inj (Option.some.inj ((b₁ i j).symm.trans (b₂ i j)))

/-- C63: when the links are physical and each opposes its own joint, the mass matrix that is returned is positive definite. -/
theorem C63_posdef (h : Source y c s R) (hU : UnitNumeric c) (hp : Physical c.dyn c.n) (ho : ∀ i < c.n, 0 < ownInertia c.dyn i (kindOf c i)) :
    ∃ M : Matrix (Fin c.n) (Fin c.n) ℝ, Returns R "M" M ∧ Mᵀ = M ∧ (∀ v, v ≠ 0 → 0 < v ⬝ᵥ M *ᵥ v) ∧ M.det ≠ 0 :=
  ⟨_, (C58_matrices h hU).1, (C58_energy h hU).2.1 _, fun _ hv => massOf_pos h.pos h.typed hU s hp ho hv, massOf_det h.pos h.typed hU s hp ho⟩

/-- C63: the equations of motion then have exactly one solution for the accelerations, whatever the torques. -/
theorem C63_forward (h : Source y c s R) (hU : UnitNumeric c) (hp : Physical c.dyn c.n) (ho : ∀ i < c.n, 0 < ownInertia c.dyn i (kindOf c i)) :
    ∃ (M C : Matrix (Fin c.n) (Fin c.n) ℝ) (G : Fin c.n → ℝ), Returns R "M" M ∧ Returns R "C" C ∧ ReturnsVec R "G" G ∧
      ∀ τ : Fin c.n → ℝ, ∃! a : Fin c.n → ℝ, M *ᵥ a + C *ᵥ s.dq + G = τ := by
  obtain ⟨h1, h2, -, h3⟩ := C58_matrices h hU
  have hu : IsUnit (massOf c s.q).det := isUnit_iff_ne_zero.2 (massOf_det h.pos h.typed hU s hp ho)
  refine ⟨_, _, _, h1, h2, h3, fun τ => ⟨(massOf c s.q)⁻¹ *ᵥ (τ - coriolisOf c s.q s.dq *ᵥ s.dq - gravityOf c s.q), ?_, fun a ha => ?_⟩⟩
  · show massOf c s.q *ᵥ ((massOf c s.q)⁻¹ *ᵥ _) + _ + _ = τ
    rw [mulVec_mulVec, mul_nonsing_inv _ hu, one_mulVec]
    abel
  · have ha' : massOf c s.q *ᵥ a + coriolisOf c s.q s.dq *ᵥ s.dq + gravityOf c s.q = τ := ha
    rw [← ha', show massOf c s.q *ᵥ a + coriolisOf c s.q s.dq *ᵥ s.dq + gravityOf c s.q - coriolisOf c s.q s.dq *ᵥ s.dq - gravityOf c s.q =
      massOf c s.q *ᵥ a by abel, mulVec_mulVec, nonsing_inv_mul _ hu, one_mulVec]

/-- C63: the condition on the last link cannot be left out: if it does not oppose its own joint, the mass matrix is singular in every position. -/
theorem C63_singular (h : Source y c s R) (hU : UnitNumeric c) (hp : Physical c.dyn c.n) (ho : ownInertia c.dyn (c.n - 1) (kindOf c (c.n - 1)) = 0) :
    ∃ M : Matrix (Fin c.n) (Fin c.n) ℝ, Returns R "M" M ∧ M.det = 0 := by
  refine ⟨_, (C58_matrices h hU).1, ?_⟩
  have hn := h.pos
  have h0 := Base.last_null (B := base c) (env c s) (base_wf h.pos h.typed) (base_unit hU) hn
    ((own_env s (show c.n - 1 < c.n by omega)).trans ho)
  rw [show SX.val (env c s) (base c).M (base c).n (base c).n = massOf c s.q from val_M h.pos h.typed hU s] at h0
  refine Matrix.exists_mulVec_eq_zero_iff.1 ⟨Pi.single (⟨c.n - 1, by omega⟩ : Fin c.n) 1, ?_, ?_⟩
  · intro e
    have := congrFun e ⟨c.n - 1, by omega⟩
    rw [Pi.single_eq_same] at this
    exact one_ne_zero this
  · refine mulVec_zero_of ((C58_energy h hU).2.1 _) (fun x => ?_) h0
    rw [← val_M h.pos h.typed hU s]
    exact C11_psd (B := base c) (env c s) (physical_env s hp) x

/-- C63: `M_dot - 2 C` is skew-symmetric. -/
theorem C63_passive (h : Source y c s R) : ∃ A C : Matrix (Fin c.n) (Fin c.n) ℝ, Returns R "M_dot" A ∧ Returns R "C" C ∧
    (A - (2 : ℝ) • C)ᵀ = -(A - (2 : ℝ) • C) :=
  ⟨_, _, h.gives .Mdot trivial (by decide) rfl rfl rfl, h.gives .C trivial (by decide) rfl rfl rfl, C15_skew (B := base c) (base_wf h.pos h.typed) (env c s)⟩

/-! ## C64 -/

omit [Fl] in
theorem hasDerivAt_springEnergyOf {q : ℝ → Fin c.n → ℝ} {x : ℝ → Fin c.ne → ℝ} {dq : Fin c.n → ℝ} {dx : Fin c.ne → ℝ} {t : ℝ}
    (hq : ∀ i, HasDerivAt (fun z => q z i) (dq i) t) (hx : ∀ e, HasDerivAt (fun z => x z e) (dx e) t) :
    HasDerivAt (fun z => springEnergyOf c (q z) (x z)) (∑ e : Fin c.ne, springOf c c.K (q t) (x t) e * (dx e - dq (Fin.castLE (ne_le_n c) e))) t := by
  unfold springEnergyOf
  refine HasDerivAt.fun_sum fun e _ => ?_
  exact (hasDerivAt_springEnergy (fun k => c.K (e * c.kO + k)) c.kO _).comp t ((hx e).sub (hq _))

omit [Fl] in
theorem hasDerivAt_motorEnergyOf {dx : ℝ → Fin c.ne → ℝ} {ddx : Fin c.ne → ℝ} {t : ℝ} (hx : ∀ e, HasDerivAt (fun z => dx z e) (ddx e) t) :
    HasDerivAt (fun z => motorEnergyOf c (dx z)) (dx t ⬝ᵥ gains c.ne 1 0 c.Mm *ᵥ ddx) t := by
  have h : HasDerivAt (fun z => motorEnergyOf c (dx z)) (1 / 2 * ∑ e : Fin c.ne, c.Mm e * (2 * dx t e ^ (2 - 1) * ddx e)) t :=
    (HasDerivAt.fun_sum fun e _ => ((hx e).fun_pow 2).const_mul (c.Mm e)).const_mul (1 / 2)
  convert h using 1
  rw [Finset.mul_sum]
  refine Finset.sum_congr rfl fun e _ => ?_
  rw [gains, mulVec_diagonal]
  simp only [mul_one, add_zero, Nat.add_one_sub_one, pow_one]
  ring

omit [Fl] in
/-- Torques on the first joints. -/
theorem onLinks_dot (v : Fin c.n → ℝ) (k : Fin c.ne → ℝ) : v ⬝ᵥ onLinks c k = ∑ e : Fin c.ne, k e * v (Fin.castLE (ne_le_n c) e) := by
  have hinj : Function.Injective (Fin.castLE (ne_le_n c)) := Fin.castLE_injective _
  have h1 : (∑ e : Fin c.ne, k e * v (Fin.castLE (ne_le_n c) e)) = ∑ i ∈ Finset.univ.image (Fin.castLE (ne_le_n c)), v i * onLinks c k i := by
    rw [Finset.sum_image fun a _ b _ h => hinj h]
    refine Finset.sum_congr rfl fun e _ => ?_
    rw [onLinks, dif_pos (show ((Fin.castLE (ne_le_n c) e : Fin c.n) : ℕ) < c.ne from e.2), mul_comm]
    rfl
  rw [h1]
  refine (Finset.sum_subset (Finset.subset_univ _) fun i _ hi => ?_).symm
  have : ¬ (i : ℕ) < c.ne := fun h => hi (Finset.mem_image.2 ⟨⟨i, h⟩, Finset.mem_univ _, Fin.ext rfl⟩)
  rw [onLinks, dif_neg this, mul_zero]

omit [Fl] in
theorem coef_lt {m o i k : ℕ} (hi : i < m) (hk : k < o) : i * o + k < m * o := by nlinarith

/-- C64: a robot without elastic joints whose motion obeys the equations of motion made of the values that are returned gains the power of the
torques applied to it minus the power of the friction, which is not negative for non-negative coefficients. -/
theorem C64_rigid (h : Source y c s R) (hU : UnitNumeric c) {q dq : ℝ → Fin c.n → ℝ} {t : ℝ} (hq0 : q t = s.q) (hdq0 : dq t = s.dq)
    (hq : ∀ i, HasDerivAt (fun z => q z i) (dq t i) t) (hdq : ∀ i, HasDerivAt (fun z => dq z i) (s.ddq i) t) :
    ∃ (M C : Matrix (Fin c.n) (Fin c.n) ℝ) (G f : Fin c.n → ℝ),
      Returns R "M" M ∧ Returns R "C" C ∧ ReturnsVec R "G" G ∧ ReturnsOrZero R "dl" c.dlO f ∧
      (∀ τ, M *ᵥ s.ddq + C *ᵥ s.dq + G + f = τ → HasDerivAt (fun z => linkEnergyOf c (q z) (dq z)) (τ ⬝ᵥ s.dq - f ⬝ᵥ s.dq) t) ∧
      ((∀ k < c.n * c.dlO, 0 ≤ c.dl k) → 0 ≤ f ⬝ᵥ s.dq) := by
  obtain ⟨h1, h2, -, h3⟩ := C58_matrices h hU
  refine ⟨_, _, _, frictionOf c c.dl s.dq, h1, h2, h3, ⟨fun hd => (C60_link h hd).1, fun hd => ?_⟩, fun τ hτ => ?_, fun hc => ?_⟩
  · funext i
    show friction _ c.dlO _ = 0
    rw [hd]; exact Finset.sum_range_zero _
  · have h4 := energy_env h.pos h.typed hU s hq hdq
    rw [hq0, hdq0] at h4
    refine HasDerivAt.congr_deriv (f := fun z => linkEnergyOf c (q z) (dq z)) h4 ?_
    rw [← hτ, ← sub_dotProduct, add_sub_cancel_right, dotProduct_comm]
  · refine Finset.sum_nonneg fun i _ => ?_
    rw [mul_comm]
    exact friction_dissipative (fun k hk => hc _ (coef_lt i.2 hk)) _

/-- C64: the energy balance of a robot with elastic joints.  The springs and dampers act between motor `e` and link `e`, the torques of the motors act on
the motors. -/
theorem C64_elastic (h : Source y c s R) (hU : UnitNumeric c) (he : c.elastic = true) {q dq : ℝ → Fin c.n → ℝ} {x dx : ℝ → Fin c.ne → ℝ} {t : ℝ}
    (hq0 : q t = s.q) (hdq0 : dq t = s.dq) (hx0 : x t = s.x) (hdx0 : dx t = s.dx)
    (hq : ∀ i, HasDerivAt (fun z => q z i) (dq t i) t) (hdq : ∀ i, HasDerivAt (fun z => dq z i) (s.ddq i) t)
    (hx : ∀ i, HasDerivAt (fun z => x z i) (dx t i) t) (hdx : ∀ i, HasDerivAt (fun z => dx z i) (s.ddx i) t) :
    ∃ (M C : Matrix (Fin c.n) (Fin c.n) ℝ) (G f : Fin c.n → ℝ) (Mm : Matrix (Fin c.ne) (Fin c.ne) ℝ) (k d fm : Fin c.ne → ℝ),
      Returns R "M" M ∧ Returns R "C" C ∧ ReturnsVec R "G" G ∧ ReturnsOrZero R "dl" c.dlO f ∧ Returns R "Mm" Mm ∧
      ReturnsOrZero R "k" c.kO k ∧ ReturnsOrZero R "d" c.dO d ∧ ReturnsOrZero R "dm" c.dmO fm ∧
      (∀ τ u, M *ᵥ s.ddq + C *ᵥ s.dq + G + f = τ + onLinks c (k + d) → Mm *ᵥ s.ddx + fm + k + d = u →
        HasDerivAt (fun z => energyOf c (q z) (dq z) (x z) (dx z))
          (τ ⬝ᵥ s.dq + u ⬝ᵥ s.dx - (f ⬝ᵥ s.dq + fm ⬝ᵥ s.dx + ∑ e, d e * (s.dx e - s.dq (Fin.castLE (ne_le_n c) e)))) t) ∧
      ((∀ i < c.n * c.dlO, 0 ≤ c.dl i) → 0 ≤ f ⬝ᵥ s.dq) ∧ ((∀ i < c.ne * c.dmO, 0 ≤ c.Dm i) → 0 ≤ fm ⬝ᵥ s.dx) ∧
      ((∀ i < c.ne * c.dO, 0 ≤ c.D i) → 0 ≤ ∑ e, d e * (s.dx e - s.dq (Fin.castLE (ne_le_n c) e))) := by
  obtain ⟨h1, h2, -, h3⟩ := C58_matrices h hU
  obtain ⟨hk, -, hd, -, hm, -, hM⟩ := C60_elastic h he
  refine ⟨_, _, _, frictionOf c c.dl s.dq, _, springOf c c.K s.q s.x, damperOf c c.D s.dq s.dx, motorFrictionOf c c.Dm s.dx, h1, h2, h3,
    ⟨fun hd => (C60_link h hd).1, fun hd => ?_⟩, hM, ⟨hk, fun h0 => ?_⟩, ⟨hd, fun h0 => ?_⟩, ⟨hm, fun h0 => ?_⟩, fun τ u hτ hu => ?_, fun hc => ?_,
    fun hc => ?_, fun hc => ?_⟩
  · funext i
    show friction _ c.dlO _ = 0
    rw [hd]; exact Finset.sum_range_zero _
  · funext i
    show spring _ c.kO _ = 0
    rw [h0]; exact Finset.sum_range_zero _
  · funext i
    show friction _ c.dO _ = 0
    rw [h0]; exact Finset.sum_range_zero _
  · funext i
    show friction _ c.dmO _ = 0
    rw [h0]; exact Finset.sum_range_zero _
  · have h4 := energy_env h.pos h.typed hU s hq hdq
    have h5 := hasDerivAt_motorEnergyOf hdx
    have h6 := hasDerivAt_springEnergyOf hq hx
    rw [hq0, hdq0] at h4
    rw [hdx0] at h5
    rw [hq0, hx0, hdq0, hdx0] at h6
    have h7 := (h4.add h5).add h6
    refine HasDerivAt.congr_deriv (f := fun z => energyOf c (q z) (dq z) (x z) (dx z)) h7 ?_
    have e1 : massOf c s.q *ᵥ s.ddq + coriolisOf c s.q s.dq *ᵥ s.dq + gravityOf c s.q =
        τ + onLinks c (springOf c c.K s.q s.x + damperOf c c.D s.dq s.dx) - frictionOf c c.dl s.dq := by rw [← hτ, add_sub_cancel_right]
    have e2 : gains c.ne 1 0 c.Mm *ᵥ s.ddx = u - motorFrictionOf c c.Dm s.dx - springOf c c.K s.q s.x - damperOf c c.D s.dq s.dx := by
      rw [← hu]; abel
    rw [e1, e2, dotProduct_sub, dotProduct_add, onLinks_dot, dotProduct_sub, dotProduct_sub, dotProduct_sub, dotProduct_comm s.dq τ,
      dotProduct_comm s.dq (frictionOf _ _ _), dotProduct_comm s.dx u, dotProduct_comm s.dx (motorFrictionOf _ _ _)]
    have e3 : ∀ k : Fin c.ne → ℝ, (∑ e : Fin c.ne, k e * (s.dx e - s.dq (Fin.castLE (ne_le_n c) e))) =
        s.dx ⬝ᵥ k - ∑ e : Fin c.ne, k e * s.dq (Fin.castLE (ne_le_n c) e) := by
      intro k
      rw [dotProduct, ← Finset.sum_sub_distrib]
      exact Finset.sum_congr rfl fun e _ => by ring
    rw [e3, e3]
    simp only [Pi.add_apply, add_mul, Finset.sum_add_distrib]
    ring
  · refine Finset.sum_nonneg fun i _ => ?_
    rw [mul_comm]
    exact friction_dissipative (fun k hk => hc _ (coef_lt i.2 hk)) _
  · refine Finset.sum_nonneg fun i _ => ?_
    rw [mul_comm]
    exact friction_dissipative (fun k hk => hc _ (coef_lt i.2 hk)) _
  · refine Finset.sum_nonneg fun i _ => ?_
    rw [mul_comm]
    exact friction_dissipative (fun k hk => hc _ (coef_lt i.2 hk)) _

/-- C64: with no torques applied and non-negative coefficients of friction the energy of a robot without elastic joints never grows, along any motion
that obeys the equations made of the values returned at each time. -/
theorem C64_rigid_loses {st : ℝ → State c} {R : ℝ → String → Mat → Prop} (h : ∀ t, Source y c (st t) (R t)) (hU : UnitNumeric c)
    (hq : ∀ t i, HasDerivAt (fun z => (st z).q i) ((st t).dq i) t) (hdq : ∀ t i, HasDerivAt (fun z => (st z).dq i) ((st t).ddq i) t)
    (hfree : ∀ t (M C : Matrix (Fin c.n) (Fin c.n) ℝ) (G f : Fin c.n → ℝ), Returns (R t) "M" M → Returns (R t) "C" C → ReturnsVec (R t) "G" G → ReturnsOrZero (R t) "dl" c.dlO f →
      M *ᵥ (st t).ddq + C *ᵥ (st t).dq + G + f = 0)
    (hc : ∀ k < c.n * c.dlO, 0 ≤ c.dl k) : Antitone fun t => linkEnergyOf c (st t).q (st t).dq := by
  have key : ∀ t, ∃ p ≤ 0, HasDerivAt (fun t => linkEnergyOf c (st t).q (st t).dq) p t := by
    intro t
    obtain ⟨M, C, G, f, h1, h2, h3, h4, h5, h6⟩ := C64_rigid (q := fun z => (st z).q) (dq := fun z => (st z).dq) (h t) hU rfl rfl (hq t) (hdq t)
    have h7 := h5 0 (hfree t M C G f h1 h2 h3 h4)
    refine ⟨_, ?_, h7⟩
    rw [zero_dotProduct]
    have := h6 hc
    linarith
  refine antitone_of_deriv_nonpos (fun t => ?_) fun t => ?_
  · obtain ⟨p, -, hp⟩ := key t
    exact hp.differentiableAt
  · obtain ⟨p, h0, hp⟩ := key t
    rw [hp.deriv]
    exact h0

/-- C64: the same for a robot with elastic joints, without torques on the links and on the motors. -/
theorem C64_elastic_loses {st : ℝ → State c} {R : ℝ → String → Mat → Prop} (h : ∀ t, Source y c (st t) (R t)) (hU : UnitNumeric c) (he : c.elastic = true)
    (hq : ∀ t i, HasDerivAt (fun z => (st z).q i) ((st t).dq i) t) (hdq : ∀ t i, HasDerivAt (fun z => (st z).dq i) ((st t).ddq i) t)
    (hx : ∀ t i, HasDerivAt (fun z => (st z).x i) ((st t).dx i) t) (hdx : ∀ t i, HasDerivAt (fun z => (st z).dx i) ((st t).ddx i) t)
    (hfree : ∀ t (M C : Matrix (Fin c.n) (Fin c.n) ℝ) (G f : Fin c.n → ℝ) (Mm : Matrix (Fin c.ne) (Fin c.ne) ℝ) (k d fm : Fin c.ne → ℝ), Returns (R t) "M" M → Returns (R t) "C" C → ReturnsVec (R t) "G" G → ReturnsOrZero (R t) "dl" c.dlO f →
      Returns (R t) "Mm" Mm → ReturnsOrZero (R t) "k" c.kO k → ReturnsOrZero (R t) "d" c.dO d → ReturnsOrZero (R t) "dm" c.dmO fm →
      M *ᵥ (st t).ddq + C *ᵥ (st t).dq + G + f = onLinks c (k + d) ∧ Mm *ᵥ (st t).ddx + fm + k + d = 0)
    (hl : ∀ k < c.n * c.dlO, 0 ≤ c.dl k) (hm : ∀ k < c.ne * c.dmO, 0 ≤ c.Dm k) (hD : ∀ k < c.ne * c.dO, 0 ≤ c.D k) :
    Antitone fun t => energyOf c (st t).q (st t).dq (st t).x (st t).dx := by
  have key : ∀ t, ∃ p ≤ 0, HasDerivAt (fun t => energyOf c (st t).q (st t).dq (st t).x (st t).dx) p t := by
    intro t
    obtain ⟨M, C, G, f, Mm, k, d, fm, h1, h2, h3, h4, h5, h6, h7, h8, h9, h10, h11, h12⟩ := C64_elastic (q := fun z => (st z).q)
      (dq := fun z => (st z).dq) (x := fun z => (st z).x) (dx := fun z => (st z).dx) (h t) hU he rfl rfl rfl rfl (hq t) (hdq t) (hx t) (hdx t)
    obtain ⟨e1, e2⟩ := hfree t M C G f Mm k d fm h1 h2 h3 h4 h5 h6 h7 h8
    have h13 := h9 0 0 (by rw [e1, zero_add]) e2
    refine ⟨_, ?_, h13⟩
    rw [zero_dotProduct, zero_dotProduct]
    have := h10 hl
    have := h11 hm
    have := h12 hD
    linarith
  refine antitone_of_deriv_nonpos (fun t => ?_) fun t => ?_
  · obtain ⟨p, -, hp⟩ := key t
    exact hp.differentiableAt
  · obtain ⟨p, h0, hp⟩ := key t
    rw [hp.deriv]
    exact h0

end

/-! ## Examples -/

namespace Ex

open Spec Robot

/-- The arm with solid links. -/
def solid : Conf := { arm with dyn := fun i => if i % 10 = 0 ∨ i % 10 = 4 ∨ i % 10 = 7 ∨ i % 10 = 9 then 1 else if i % 10 = 1 then 0.5 else 0 }

theorem unit_solid : @UnitNumeric fl solid := by
  have key : ∀ a : ℝ, a = 0 ∨ a = c90 → Spec.snap (fl.cosF a) ^ 2 + Spec.snap (fl.sinF a) ^ 2 = 1 := by
    rintro a (rfl | rfl)
    · rw [snap_zero.1, snap_zero.2]; norm_num
    · rw [snap_c90.1, snap_c90.2]; norm_num
  intro a ha
  refine key a ?_
  rcases ha with ⟨i, hi, -, rfl⟩ | ⟨i, hi, -, h0, rfl⟩ | ⟨i, h3, -, ⟨-, rfl⟩ | ⟨-, rfl⟩⟩
  · right; exact if_pos (.inl (by omega))
  · right; exact if_pos (.inr (by omega))
  · right; exact if_pos h3
  · left; exact if_pos h3

theorem physical_solid : Physical solid.dyn solid.n := by
  intro i _
  have h : ∀ j < 10, (10 * i + j) % 10 = j := fun j hj => by omega
  refine ⟨by simp [mass, solid], fun x => ?_⟩
  simp [inertia, solid, h, dotProduct, mulVec, Fin.sum_univ_three]
  nlinarith [mul_self_nonneg (x 0), mul_self_nonneg (x 1), mul_self_nonneg (x 2)]

theorem own_solid : ∀ i < solid.n, 0 < ownInertia solid.dyn i (kindOf solid i) := by
  intro i hi
  have h : ∀ j < 10, (10 * i + j) % 10 = j := fun j hj => by omega
  cases kindOf solid i
  · simp [ownInertia, mass, solid]
  · simp [ownInertia, mass, inertia, com, solid, h]
    norm_num

/-- The accelerations of the arm in motion are determined. -/
example : ∃ (r : Robot) (s : Spec.State solid), @Running fl (fileOf solid) solid s r ∧ s.dq ≠ 0 ∧
    ∃ M : Matrix (Fin 2) (Fin 2) ℝ, Returns (answers r) "M" M ∧ M.det ≠ 0 := by
  obtain ⟨r, h⟩ := @C56_reachable fl _ _ _ (describes_fileOf (c := solid) (fun h => nomatch h)) joints_arm (retuned_refl solid)
    ⟨fun i => i + 1, fun i => 2 - i, 0, 0, 0, 0, 0, 0, 0, 0⟩
  obtain ⟨M, h1, -, -, h2⟩ := @C63_posdef fl _ _ _ _ (@Source.robot fl _ _ _ _ h) unit_solid physical_solid own_solid
  refine ⟨r, _, h, fun e => ?_, M, h1, h2⟩
  have h0 : (2 : ℝ) - ((0 : ℕ) : ℝ) = 0 := congrFun e (0 : Fin 2)
  norm_num at h0

/-- The arm with a massless last link. -/
def hollow : Conf := { arm with dyn := fun i => if i < 10 ∧ (i % 10 = 0 ∨ i % 10 = 4 ∨ i % 10 = 7 ∨ i % 10 = 9) then 1 else 0 }

/-- The mass matrix does not determine the accelerations of an arm with a massless last link. -/
example (s : Spec.State hollow) : ∃ r : Robot, @Running fl (fileOf hollow) hollow s r ∧
    ∃ M : Matrix (Fin 2) (Fin 2) ℝ, Returns (answers r) "M" M ∧ M.det = 0 := by
  obtain ⟨r, h⟩ := @C56_reachable fl _ _ _ (describes_fileOf (c := hollow) (fun h => nomatch h)) joints_arm (retuned_refl hollow) s
  refine ⟨r, h, @C63_singular fl _ _ _ _ (@Source.robot fl _ _ _ _ h) unit_solid (fun i _ => ?_) ?_⟩
  · have hi : ∀ j < 10, (10 * i + j) % 10 = j := fun j hj => by omega
    by_cases h0 : i = 0
    · subst h0
      refine ⟨by simp [mass, hollow], fun x => ?_⟩
      simp [inertia, hollow, dotProduct, mulVec, Fin.sum_univ_three]
      nlinarith [mul_self_nonneg (x 0), mul_self_nonneg (x 1), mul_self_nonneg (x 2)]
    · have h1 : ∀ j, ¬ 10 * i + j < 10 := fun j => by omega
      have h2 : ¬ 10 * i < 10 := by omega
      refine ⟨by simp [mass, hollow, h2], fun x => ?_⟩
      simp [inertia, hollow, dotProduct, mulVec, Fin.sum_univ_three, h1]
  · rw [show kindOf hollow (hollow.n - 1) = .prismatic from rfl]
    show hollow.dyn (10 * 1) = 0
    simp [hollow]

/-- A slider of mass 1 with friction 1, driven directly or through a spring, a damper and a motor of inertia 1 with friction 1. -/
def slider (b : Bool) : Conf := { solid with
  types := [if b then "P_SEA" else "P"]
  elastic := b
  kO := if b then 1 else 0
  dO := if b then 1 else 0
  dmO := if b then 1 else 0
  dlO := 1
  dl := fun _ => 1
  Mm := fun _ => 1
  D := fun _ => 1
  Dm := fun _ => 1
  g := fun _ => 0 }

theorem unit_slider (b : Bool) : @UnitNumeric fl (slider b) := fun a ha => unit_solid a (by
  rcases ha with ⟨i, hi, h1, h2⟩ | ⟨i, hi, hk, h1, h2⟩ | h
  · exact .inl ⟨i, lt_of_lt_of_le hi (by cases b <;> decide), h1, h2⟩
  · have : i = 0 := Nat.lt_one_iff.1 hi
    subst this
    exact absurd h1 (by cases b <;> decide)
  · exact .inr (.inr h))

theorem joints_slider (b : Bool) : JointsOk (slider b) := by cases b <;> refine ⟨?_, ?_⟩ <;> decide

theorem mass_slider (b : Bool) (q : Fin (slider b).n → ℝ) (i j : Fin (slider b).n) : @massOf fl (slider b) q i j = 1 := by
  let _ := fl
  have hn : 0 < (slider b).n := Nat.one_pos
  have ht : Typed (slider b) := typed_of (joints_slider b)
  set s : Spec.State (slider b) := ⟨q, 0, 0, 0, 0, 0, 0, 0, 0, 0⟩
  have h := Base.quad_M (B := base (slider b)) (env (slider b) s) (fun _ => 1)
  rw [show (base (slider b)).n = 1 from rfl, Finset.sum_range_one] at h
  have h' := Base.quad_own' (B := base (slider b)) (env (slider b) s) (base_wf hn ht) (base_unit (unit_slider b))
    (i := 0) Nat.one_pos (v := fun _ => 1) (fun j hj => absurd hj (Nat.not_lt_zero _))
  rw [own_env s hn] at h'
  have h2 := h.trans h'
  rw [show SX.val (env (slider b) s) (base (slider b)).M 1 1 = massOf (slider b) q from val_M hn ht (unit_slider b) s] at h2
  have h3 : ∀ (A : Matrix (Fin 1) (Fin 1) ℝ) (i j : Fin 1), (fun _ : Fin 1 => (1 : ℝ)) ⬝ᵥ A *ᵥ (fun _ => 1) = A i j := by
    intro A i j
    obtain rfl : i = 0 := Subsingleton.elim _ _
    obtain rfl : j = 0 := Subsingleton.elim _ _
    simp [dotProduct, mulVec]
  refine (h3 (massOf (slider b) q) i j).symm.trans (h2.trans ?_)
  rw [show kindOf (slider b) 0 = .prismatic by cases b <;> rfl]
  simp [ownInertia, mass, slider, solid]

theorem coriolis_slider (b : Bool) (q v : Fin (slider b).n → ℝ) (i j : Fin (slider b).n) : @coriolisOf fl (slider b) q v i j = 0 := by
  change 1 / 2 * ∑ k : Fin (slider b).n, (deriv (fun x => @massOf fl (slider b) (Function.update q k x) i j) (q k) +
    deriv (fun x => @massOf fl (slider b) (Function.update q j x) i k) (q j) -
    deriv (fun x => @massOf fl (slider b) (Function.update q i x) j k) (q i)) * v k = 0
  simp only [mass_slider, deriv_const]
  simp

theorem gravity_slider (b : Bool) (q : Fin (slider b).n → ℝ) (i : Fin (slider b).n) : @gravityOf fl (slider b) q i = 0 := by
  have h : ∀ q, @potentialOf fl (slider b) q = 0 := by
    intro q
    refine neg_eq_zero.2 (Finset.sum_eq_zero fun i _ => ?_)
    refine (congrArg (_ * ·) ?_).trans (mul_zero _)
    exact zero_dotProduct _
  simp only [gravityOf, h, deriv_const]

theorem mulVec_slider (b : Bool) (A : Matrix (Fin (slider b).n) (Fin (slider b).n) ℝ) (v : Fin (slider b).n → ℝ) (i : Fin (slider b).n) :
    (A *ᵥ v) i = A i i * v i :=
  have h : ∀ f : Fin (slider b).n → ℝ, ∑ j, f j = f i := fun f =>
    (Fin.sum_univ_one f).trans (congrArg f (Subsingleton.elim (α := Fin 1) _ _))
  h fun j => A i j * v j

theorem friction_slider (b : Bool) (v : Fin (slider b).n → ℝ) : frictionOf (slider b) (slider b).dl v = v := by
  funext i
  simp [frictionOf, friction, show (slider b).dlO = 1 from rfl, show (slider b).dl = fun _ => 1 from rfl]

/-- The slider comes to rest, and the motor, if there is one, with it. -/
def slowing (b : Bool) (t : ℝ) : Spec.State (slider b) :=
  ⟨fun _ => -Real.exp (-t), fun _ => Real.exp (-t), fun _ => -Real.exp (-t), 0, 0, 0, 0,
    fun _ => -Real.exp (-t), fun _ => Real.exp (-t), fun _ => -Real.exp (-t)⟩

theorem slowing_balance (b : Bool) (t : ℝ) : @massOf fl (slider b) (slowing b t).q *ᵥ (slowing b t).ddq +
    @coriolisOf fl (slider b) (slowing b t).q (slowing b t).dq *ᵥ (slowing b t).dq + @gravityOf fl (slider b) (slowing b t).q +
    frictionOf (slider b) (slider b).dl (slowing b t).dq = 0 := by
  funext i
  rw [friction_slider, Pi.add_apply, Pi.add_apply, Pi.add_apply, mulVec_slider, mulVec_slider, mass_slider, coriolis_slider, gravity_slider,
    one_mul, zero_mul, add_zero, add_zero]
  exact neg_add_cancel _

theorem hasDerivAt_slowing (t : ℝ) : HasDerivAt (fun z => Real.exp (-z)) (-Real.exp (-t)) t := by
  have := (Real.hasDerivAt_exp (-t)).comp t (hasDerivAt_neg t)
  rwa [mul_neg_one] at this

theorem hasDerivAt_slowing' (t : ℝ) : HasDerivAt (fun z => -Real.exp (-z)) (Real.exp (-t)) t := by
  have := (hasDerivAt_slowing t).neg
  rwa [neg_neg] at this

theorem reachable_slowing (b : Bool) (t : ℝ) : ∃ r, @Running fl (fileOf (slider b)) (slider b) (slowing b t) r :=
  @C56_reachable fl _ _ _ (describes_fileOf (c := slider b) (fun h => by
    have h : b = false := h
    subst h
    exact ⟨rfl, rfl, rfl⟩)) (joints_slider b) (retuned_refl (slider b)) (slowing b t)

/-- A motion of the slider that obeys the equations of motion, asked for at every time. -/
example : ∃ R : ℝ → String → Mat → Prop, (∀ t, @Source fl (fileOf (slider false)) (slider false) (slowing false t) (R t)) ∧
    Antitone fun t => @linkEnergyOf fl (slider false) (slowing false t).q (slowing false t).dq := by
  let _ := fl
  choose r hr using reachable_slowing false
  have hs : ∀ t, Source (fileOf (slider false)) (slider false) (slowing false t) (answers (r t)) := fun t => .robot (hr t)
  refine ⟨_, hs, C64_rigid_loses hs (unit_slider false) (fun t _ => hasDerivAt_slowing' t) (fun t _ => hasDerivAt_slowing t)
    (fun t M C G f hM hC hG hf => ?_) fun _ _ => zero_le_one⟩
  obtain ⟨h1, h2, -, h3⟩ := C58_matrices (hs t) (unit_slider false)
  have e1 := C63_determined (hs t) hM h1
  have e2 := C63_determined (hs t) hC h2
  have e3 : G = gravityOf (slider false) (slowing false t).q := funext fun i => congrFun (congrFun (C63_determined (hs t) hG h3) i) 0
  have e4 : f = frictionOf (slider false) (slider false).dl (slowing false t).dq :=
    funext fun i => congrFun (congrFun (C63_determined (hs t) (hf.1 Nat.one_pos) (C60_link (hs t) Nat.one_pos).1) i) 0
  rw [e1, e2, e3, e4]
  exact slowing_balance false t

/-- A motion of the slider and its motor that obeys the equations of motion, asked for at every time. -/
example : ∃ R : ℝ → String → Mat → Prop, (∀ t, @Source fl (fileOf (slider true)) (slider true) (slowing true t) (R t)) ∧
    Antitone fun t => @energyOf fl (slider true) (slowing true t).q (slowing true t).dq (slowing true t).x (slowing true t).dx := by
  let _ := fl
  choose r hr using reachable_slowing true
  have hs : ∀ t, Source (fileOf (slider true)) (slider true) (slowing true t) (answers (r t)) := fun t => .robot (hr t)
  refine ⟨_, hs, C64_elastic_loses hs (unit_slider true) rfl (fun t _ => hasDerivAt_slowing' t) (fun t _ => hasDerivAt_slowing t)
    (fun t _ => hasDerivAt_slowing' t) (fun t _ => hasDerivAt_slowing t) (fun t M C G f Mm k d fm hM hC hG hf hMm hk hd hfm => ?_)
    (fun _ _ => zero_le_one) (fun _ _ => zero_le_one) (fun _ _ => zero_le_one)⟩
  obtain ⟨h1, h2, -, h3⟩ := C58_matrices (hs t) (unit_slider true)
  obtain ⟨hk', -, hd', -, hm', -, hM'⟩ := C60_elastic (hs t) rfl
  have e1 := C63_determined (hs t) hM h1
  have e2 := C63_determined (hs t) hC h2
  have e3 : G = gravityOf (slider true) (slowing true t).q := funext fun i => congrFun (congrFun (C63_determined (hs t) hG h3) i) 0
  have e4 : f = frictionOf (slider true) (slider true).dl (slowing true t).dq :=
    funext fun i => congrFun (congrFun (C63_determined (hs t) (hf.1 Nat.one_pos) (C60_link (hs t) Nat.one_pos).1) i) 0
  have e5 : k = springOf (slider true) (slider true).K (slowing true t).q (slowing true t).x :=
    funext fun i => congrFun (congrFun (C63_determined (hs t) (hk.1 Nat.one_pos) (hk' Nat.one_pos)) i) 0
  have e6 : d = damperOf (slider true) (slider true).D (slowing true t).dq (slowing true t).dx :=
    funext fun i => congrFun (congrFun (C63_determined (hs t) (hd.1 Nat.one_pos) (hd' Nat.one_pos)) i) 0
  have e7 : fm = motorFrictionOf (slider true) (slider true).Dm (slowing true t).dx :=
    funext fun i => congrFun (congrFun (C63_determined (hs t) (hfm.1 Nat.one_pos) (hm' Nat.one_pos)) i) 0
  have e8 := C63_determined (hs t) hMm hM'
  have e5' : k = 0 := by
    rw [e5]
    funext i
    simp [springOf, spring, show ∀ i, (slowing true t).x i = -Real.exp (-t) from fun _ => rfl,
      show ∀ i, (slowing true t).q i = -Real.exp (-t) from fun _ => rfl]
  have e6' : d = 0 := by
    rw [e6]
    funext i
    simp [damperOf, friction, show ∀ i, (slowing true t).dx i = Real.exp (-t) from fun _ => rfl,
      show ∀ i, (slowing true t).dq i = Real.exp (-t) from fun _ => rfl]
  have e9 : onLinks (slider true) 0 = 0 := by
    funext i
    unfold onLinks
    split <;> rfl
  rw [e1, e2, e3, e4, e5', e6', add_zero, e9, e7, e8, add_zero, add_zero]
  refine ⟨slowing_balance true t, ?_⟩
  funext i
  rw [Pi.add_apply, gains, mulVec_diagonal]
  simp [motorFrictionOf, friction, show ∀ i, (slowing true t).dx i = Real.exp (-t) from fun _ => rfl, show (slider true).dmO = 1 from rfl,
    show ∀ i, (slowing true t).ddx i = -Real.exp (-t) from fun _ => rfl, show ∀ i, (slider true).Mm i = 1 from fun _ => rfl,
    show ∀ i, (slider true).Dm i = 1 from fun _ => rfl]

end Ex

end

end Thunder
