import Verif.Lib.Decay
import Verif.Props.Balance
import Verif.Spec.Adaptive

/-!
# Adaptive control with the values that are returned: C74
-/

open scoped Classical
open Matrix Filter Topology

namespace Thunder

noncomputable section

open Spec Robot SX

/-- A skew-symmetric matrix has no quadratic form. -/
theorem quad_skew {n : ℕ} {A : Matrix (Fin n) (Fin n) ℝ} (h : Aᵀ = -A) (v : Fin n → ℝ) : v ⬝ᵥ A *ᵥ v = 0 := by
  have h1 : v ⬝ᵥ A *ᵥ v = -(v ⬝ᵥ A *ᵥ v) := by
    conv_lhs => rw [dotProduct_mulVec, ← mulVec_transpose, h, neg_mulVec, neg_dotProduct, dotProduct_comm]
  linarith

section

variable [Fl] {y : Yaml} {c : Conf} {p : ℕ → ℝ} {st : ℝ → State c} {R : ℝ → String → Mat → Prop} {K : Matrix (Fin c.n) (Fin c.n) ℝ}
  {Γ W : Matrix (Fin (10 * c.n)) (Fin (10 * c.n)) ℝ} {est : ℝ → Fin (10 * c.n) → ℝ}

/-- The error of the velocities obeys `M ds/dt + C s + K s = Yr (est - reg p)`. -/
theorem error_motion (h : ∀ t, Source y c (st t) (R t)) (hU : UnitNumeric c) (hc : Controlled c p st R K est) {t : ℝ} (ht : 0 ≤ t)
    {Y : Matrix (Fin c.n) (Fin (10 * c.n)) ℝ} (hY : Returns (R t) "Yr" Y) :
    massWith c p (st t).q *ᵥ ((st t).ddq - (st t).ddqr) = Y *ᵥ (est t - fun k : Fin (10 * c.n) => reg p k) - K *ᵥ ((st t).dq - (st t).dqr) -
      coriolisWith c p (st t).q (st t).dq *ᵥ ((st t).dq - (st t).dqr) := by
  obtain ⟨Y', _, _, _, h1, -, -, -, -, h2⟩ := C59_inertial (h t) hU
  obtain rfl := C63_determined (h t) hY h1
  have h3 : Y *ᵥ (fun k : Fin (10 * c.n) => reg p k) = massWith c p (st t).q *ᵥ (st t).ddqr + coriolisWith c p (st t).q (st t).dq *ᵥ (st t).dqr +
      gravityWith c p (st t).q := (h2 p).2.2.2
  have hf : ReturnsOrZero (R t) "dl" c.dlO (frictionOf c c.dl (st t).dq) := ⟨fun hd => (C60_link (h t) hd).1, fun hd => by
    funext i
    show friction _ c.dlO _ = 0
    rw [hd]; exact Finset.sum_range_zero _⟩
  have h4 := hc.law t ht Y _ hY hf
  simp only [mulVec_sub] at h4 ⊢
  rw [h3]
  funext i
  have h5 := congrFun h4 i
  simp only [Pi.add_apply, Pi.sub_apply] at h5 ⊢
  linarith

/-- Derivative of the part of `lyapunov` that depends on the velocities. -/
theorem error_energy (h : ∀ t, Source y c (st t) (R t)) (hU : UnitNumeric c) (hc : Controlled c p st R K est) {t : ℝ} (ht : 0 ≤ t)
    {Y : Matrix (Fin c.n) (Fin (10 * c.n)) ℝ} (hY : Returns (R t) "Yr" Y) :
    HasDerivAt (fun z => 1 / 2 * (((st z).dq - (st z).dqr) ⬝ᵥ massWith c p (st z).q *ᵥ ((st z).dq - (st z).dqr)))
      (((st t).dq - (st t).dqr) ⬝ᵥ Y *ᵥ (est t - fun k : Fin (10 * c.n) => reg p k) - ((st t).dq - (st t).dqr) ⬝ᵥ K *ᵥ ((st t).dq - (st t).dqr)) t := by
  have hn := (h t).pos
  have hty : Typed (withDyn c p) := (h t).typed
  have hU' : UnitNumeric (withDyn c p) := hU
  set s' := State.withDyn (st t) p
  have hM := fun i j => (MGC_dot (c := withDyn c p) hn hty hU' s' (q := fun z => (st z).q) (dq := fun z => (st z).dq) (t := t) rfl rfl (hc.q t ht) (hc.dq t ht) i j).1
  have hv : ∀ i, HasDerivAt (fun z => ((st z).dq - (st z).dqr) i) (((st t).ddq - (st t).ddqr) i) t := fun i => (hc.dq t ht i).sub (hc.dqr t ht i)
  have hsym : (massWith c p (st t).q)ᵀ = massWith c p (st t).q := by
    have h1 := C10_symm (B := base (withDyn c p)) (env (withDyn c p) s')
    have h2 : SX.val (env (withDyn c p) s') (base (withDyn c p)).M c.n c.n = massWith c p (st t).q := val_M (c := withDyn c p) hn hty hU' s'
    exact h2 ▸ h1
  have hskew : (SX.val (env (withDyn c p) s') (base (withDyn c p)).Mdot c.n c.n - (2 : ℝ) • coriolisWith c p (st t).q (st t).dq)ᵀ =
      -(SX.val (env (withDyn c p) s') (base (withDyn c p)).Mdot c.n c.n - (2 : ℝ) • coriolisWith c p (st t).q (st t).dq) := by
    have h1 := C15_skew (base_wf (c := withDyn c p) hn hty) (env (withDyn c p) s')
    have h2 : SX.val (env (withDyn c p) s') (base (withDyn c p)).C c.n c.n = coriolisWith c p (st t).q (st t).dq :=
      val_C (c := withDyn c p) hn hty hU' s'
    rw [← h2]
    exact h1
  have hq := quad_skew hskew ((st t).dq - (st t).dqr)
  refine (hasDerivAt_quad (n := c.n) hM hv hsym).congr_deriv ?_
  have he := error_motion h hU hc ht hY
  have he' := congrArg (fun w => ((st t).dq - (st t).dqr) ⬝ᵥ w) he
  simp only [dotProduct_sub] at he'
  rw [sub_mulVec, dotProduct_sub, smul_mulVec, dotProduct_smul, smul_eq_mul] at hq
  have h3 : ((st t).ddq - (st t).ddqr) ⬝ᵥ massWith c p (st t).q *ᵥ ((st t).dq - (st t).dqr) =
      ((st t).dq - (st t).dqr) ⬝ᵥ massWith c p (st t).q *ᵥ ((st t).ddq - (st t).ddqr) := by
    rw [dotProduct_mulVec, ← mulVec_transpose, hsym, dotProduct_comm]
  show ((st t).ddq - (st t).ddqr) ⬝ᵥ massWith c p (st t).q *ᵥ ((st t).dq - (st t).dqr) +
    1 / 2 * (((st t).dq - (st t).dqr) ⬝ᵥ SX.val (env (withDyn c p) s') (base (withDyn c p)).Mdot c.n c.n *ᵥ ((st t).dq - (st t).dqr)) = _
  linarith

/-- C74: the function `lyapunov` of the closed loop loses `sᵀ K s` per unit of time, where `s` is the error of the velocities, whatever the bodies are and
whatever the estimate was at first. -/
theorem C74_rate (h : ∀ t, Source y c (st t) (R t)) (hU : UnitNumeric c) (hc : Controlled c p st R K est) (hl : Learns c st R Γ est)
    (hW : W * Γ = 1) (hs : Wᵀ = W) {t : ℝ} (ht : 0 ≤ t) :
    HasDerivAt (fun z => lyapunov c p W (st z) (est z - fun k : Fin (10 * c.n) => reg p k))
      (-(((st t).dq - (st t).dqr) ⬝ᵥ K *ᵥ ((st t).dq - (st t).dqr))) t := by
  obtain ⟨Y, _, _, _, hY, -⟩ := C59_inertial (h t) hU
  have h1 := error_energy h hU hc ht hY
  have hv : ∀ k, HasDerivAt (fun z => (est z - fun k : Fin (10 * c.n) => reg p k) k) ((-(Γ *ᵥ Yᵀ *ᵥ ((st t).dq - (st t).dqr))) k) t :=
    fun k => (hl t ht Y hY k).sub_const _
  have h2 := hasDerivAt_quad (A := fun _ => W) (A' := 0) (fun i j => hasDerivAt_const t (W i j)) hv hs
  refine (h1.add h2).congr_deriv ?_
  have h3 : (Γ *ᵥ Yᵀ *ᵥ ((st t).dq - (st t).dqr)) ⬝ᵥ W *ᵥ (est t - fun k : Fin (10 * c.n) => reg p k) =
      ((st t).dq - (st t).dqr) ⬝ᵥ Y *ᵥ (est t - fun k : Fin (10 * c.n) => reg p k) := by
    rw [dotProduct_mulVec _ W, ← mulVec_transpose, hs, mulVec_mulVec, hW, one_mulVec, mulVec_transpose, ← dotProduct_mulVec]
  rw [zero_mulVec, dotProduct_zero, mul_zero, add_zero, neg_dotProduct, h3]
  ring

/-- C74: with positive semidefinite gains `K` it never grows. -/
theorem C74_loses (h : ∀ t, Source y c (st t) (R t)) (hU : UnitNumeric c) (hc : Controlled c p st R K est) (hl : Learns c st R Γ est)
    (hW : W * Γ = 1) (hs : Wᵀ = W) (hK : ∀ v, 0 ≤ v ⬝ᵥ K *ᵥ v) :
    AntitoneOn (fun t => lyapunov c p W (st t) (est t - fun k : Fin (10 * c.n) => reg p k)) (Set.Ici 0) :=
  antitoneOn_of_loses fun _ ht => ⟨_, neg_nonpos.2 (hK _), C74_rate h hU hc hl hW hs ht⟩

/-- The mechanism has a kinetic energy that is not negative. -/
theorem massWith_nonneg (h : Source y c (st 0) (R 0)) (hU : UnitNumeric c) (hp : Physical p c.n) (ho : ∀ i < c.n, 0 < ownInertia p i (kindOf c i))
    (q v : Fin c.n → ℝ) : 0 ≤ v ⬝ᵥ massWith c p q *ᵥ v := by
  rcases eq_or_ne v 0 with rfl | hv
  · rw [zero_dotProduct]
  · exact (massOf_pos (c := withDyn c p) h.pos h.typed hU ⟨q, 0, 0, 0, 0, 0, 0, 0, 0, 0⟩ hp ho hv).le

/-- C74: with bodies of non-negative mass and inertia and positive gains, the error of the estimate stays bounded, and the velocities follow the reference:
their error tends to zero, provided that the error of the accelerations is bounded. -/
theorem C74_tracks (h : ∀ t, Source y c (st t) (R t)) (hU : UnitNumeric c) (hc : Controlled c p st R K est) (hl : Learns c st R Γ est)
    (hW : W * Γ = 1) (hs : Wᵀ = W) (hp : Physical p c.n) (ho : ∀ i < c.n, 0 < ownInertia p i (kindOf c i)) (hW0 : ∀ e, 0 ≤ e ⬝ᵥ W *ᵥ e)
    {k : ℝ} (hk : 0 < k) (hK : ∀ v, k * (v ⬝ᵥ v) ≤ v ⬝ᵥ K *ᵥ v) :
    (∀ t, 0 ≤ t → (est t - fun k : Fin (10 * c.n) => reg p k) ⬝ᵥ W *ᵥ (est t - fun k : Fin (10 * c.n) => reg p k) ≤
      2 * lyapunov c p W (st 0) (est 0 - fun k : Fin (10 * c.n) => reg p k)) ∧
    ∀ b, (∀ t, 0 ≤ t → ∀ i, |(st t).ddq i - (st t).ddqr i| ≤ b) → ∀ i, Tendsto (fun t => (st t).dq i - (st t).dqr i) atTop (𝓝 0) := by
  have hv : ∀ v : Fin c.n → ℝ, 0 ≤ v ⬝ᵥ v := fun v => Finset.sum_nonneg fun i _ => mul_self_nonneg (v i)
  have hM := massWith_nonneg (h 0) hU hp ho
  refine ⟨fun t ht => ?_, fun b hb i => ?_⟩
  · have h1 := C74_loses h hU hc hl hW hs (fun v => (mul_nonneg hk.le (hv v)).trans (hK v)) (show (0 : ℝ) ∈ Set.Ici (0 : ℝ) from le_refl (0 : ℝ)) ht ht
    have h2 := hM (st t).q ((st t).dq - (st t).dqr)
    simp only [lyapunov] at h1 ⊢
    linarith
  · refine tendsto_zero_of_pays (V := fun t => lyapunov c p W (st t) (est t - fun k : Fin (10 * c.n) => reg p k)) hk
      (fun t ht => ?_) (fun t ht => ⟨_, ?_, C74_rate h hU hc hl hW hs ht⟩) fun t ht => ⟨_, hb t ht i, (hc.dq t ht i).sub (hc.dqr t ht i)⟩
    · exact add_nonneg (mul_nonneg (by norm_num) (hM _ _)) (mul_nonneg (by norm_num) (hW0 _))
    · refine neg_le_neg (le_trans (mul_le_mul_of_nonneg_left ?_ hk.le) (hK _))
      rw [sq]
      exact Finset.single_le_sum (f := fun i => ((st t).dq - (st t).dqr) i * ((st t).dq - (st t).dqr) i) (fun j _ => mul_self_nonneg _) (Finset.mem_univ i)

/-- C74: if moreover the reference is the velocity of a desired motion `d` minus `l` times the error of the positions, the positions tend to the desired
ones. -/
theorem C74_follows (h : ∀ t, Source y c (st t) (R t)) (hU : UnitNumeric c) (hc : Controlled c p st R K est) (hl : Learns c st R Γ est)
    (hW : W * Γ = 1) (hs : Wᵀ = W) (hp : Physical p c.n) (ho : ∀ i < c.n, 0 < ownInertia p i (kindOf c i)) (hW0 : ∀ e, 0 ≤ e ⬝ᵥ W *ᵥ e)
    {k : ℝ} (hk : 0 < k) (hK : ∀ v, k * (v ⬝ᵥ v) ≤ v ⬝ᵥ K *ᵥ v) {b : ℝ} (hb : ∀ t, 0 ≤ t → ∀ i, |(st t).ddq i - (st t).ddqr i| ≤ b)
    {d d' : ℝ → Fin c.n → ℝ} {l : Fin c.n → ℝ} (hl0 : ∀ i, 0 < l i) (hd : ∀ t, 0 ≤ t → ∀ i, HasDerivAt (fun z => d z i) (d' t i) t)
    (hr : ∀ t, 0 ≤ t → ∀ i, (st t).dqr i = d' t i - l i * ((st t).q i - d t i)) (i : Fin c.n) :
    Tendsto (fun t => (st t).q i - d t i) atTop (𝓝 0) := by
  refine tendsto_zero_of_filter (hl0 i) (fun t ht => ?_) ((C74_tracks h hU hc hl hW hs hp ho hW0 hk hK).2 b hb i)
  refine ((hc.q t ht i).sub (hd t ht i)).congr_deriv ?_
  rw [hr t ht i]
  ring

/-- C74: with the linear parameters of the bodies themselves and without learning, half the quadratic form of the mass matrix in the velocity error loses
`sᵀ K s` per unit of time. -/
theorem C74_known (h : ∀ t, Source y c (st t) (R t)) (hU : UnitNumeric c) (hc : Controlled c p st R K fun _ k => reg p k) {t : ℝ} (ht : 0 ≤ t) :
    HasDerivAt (fun z => 1 / 2 * (((st z).dq - (st z).dqr) ⬝ᵥ massWith c p (st z).q *ᵥ ((st z).dq - (st z).dqr)))
      (-(((st t).dq - (st t).dqr) ⬝ᵥ K *ᵥ ((st t).dq - (st t).dqr))) t := by
  obtain ⟨Y, _, _, _, hY, -⟩ := C59_inertial (h t) hU
  refine (error_energy h hU hc ht hY).congr_deriv ?_
  rw [sub_self, mulVec_zero, dotProduct_zero, zero_sub]

end

/-! ## A closed loop -/

namespace Ex

open Spec Robot

theorem gravityWith_slider (p : ℕ → ℝ) (q : Fin (slider false).n → ℝ) : @gravityWith fl (slider false) p q = 0 := by
  let _ := fl
  have h : ∀ q, potentialOf (withDyn (slider false) p) q = 0 := by
    intro q
    refine neg_eq_zero.2 (Finset.sum_eq_zero fun i _ => ?_)
    refine (congrArg (_ * ·) ?_).trans (mul_zero _)
    exact zero_dotProduct _
  funext i
  show gravityOf (withDyn (slider false) p) q i = 0
  simp only [gravityOf, h, deriv_const]

/-- A row that gives zero for the linear parameters of all bodies is zero. -/
theorem zero_of_reg {Y : Matrix (Fin 1) (Fin (10 * 1)) ℝ} (h : ∀ p, Y *ᵥ (fun k => reg p k) = 0) : Y = 0 := by
  have key : ∀ x : ℕ → ℝ, x 0 ≠ 0 → ∑ k : Fin (10 * 1), Y 0 k * x k = 0 := by
    intro x hx
    have h1 : ∑ k : Fin (10 * 1), Y 0 k * reg (invPar x) k = 0 := congrFun (h (invPar x)) 0
    rw [← h1]
    refine Finset.sum_congr rfl fun k _ => congrArg (Y 0 k * ·) ?_
    have h2 := reg_eq_linParOf (invPar x) 0 k.2
    simp only [Nat.mul_zero, Nat.zero_add] at h2
    exact (linPar_invPar hx k.2).symm.trans h2.symm
  have h0 : Y 0 0 = 0 := by
    have := key (fun j => if j = 0 then 1 else 0) (by simp)
    rw [Finset.sum_eq_single (0 : Fin (10 * 1)) (fun j _ hj => by rw [if_neg (show ¬ (j : ℕ) = 0 from fun e => hj (Fin.ext e)), mul_zero])
      (fun hj => absurd (Finset.mem_univ _) hj)] at this
    simpa using this
  ext i k
  obtain rfl : i = 0 := Subsingleton.elim _ _
  by_cases hk : k = 0
  · rw [hk, h0]; rfl
  have h1 := key (fun j => if j = 0 then 1 else if j = (k : ℕ) then 1 else 0) (by simp)
  rw [Finset.sum_eq_single k (fun j _ hj => ?_) (fun hj => absurd (Finset.mem_univ _) hj)] at h1
  · simpa [show ¬ (k : ℕ) = 0 from fun e => hk (Fin.ext e)] using h1
  · by_cases h2 : j = 0
    · rw [h2, h0, zero_mul]
    · rw [if_neg (show ¬ (j : ℕ) = 0 from fun e => h2 (Fin.ext e)), if_neg (fun e => hj (Fin.ext e)), mul_zero]

/-- The slider brakes from the velocity 1 to rest by a controller that takes its link for a body without mass. -/
theorem controlled_slowing {R : ℝ → String → Mat → Prop} (hs : ∀ t, @Source fl (fileOf (slider false)) (slider false) (slowing false t) (R t)) :
    @Controlled fl (slider false) (slider false).dyn (slowing false) R 1 (fun _ => 0) ∧ Learns (slider false) (slowing false) R 1 (fun _ => 0) := by
  let _ := fl
  have hY : ∀ t (Y : Matrix (Fin (slider false).n) (Fin (10 * (slider false).n)) ℝ), Returns (R t) "Yr" Y → Y = 0 := by
    intro t Y hY
    obtain ⟨Y', _, _, _, h1, -, -, -, -, h2⟩ := C59_inertial (hs t) (unit_slider false)
    obtain rfl := C63_determined (hs t) hY h1
    refine zero_of_reg fun p => ?_
    have h3 : Y *ᵥ (fun k : Fin (10 * (slider false).n) => reg p k) = massWith (slider false) p (slowing false t).q *ᵥ (slowing false t).ddqr +
        coriolisWith (slider false) p (slowing false t).q (slowing false t).dq *ᵥ (slowing false t).dqr +
        gravityWith (slider false) p (slowing false t).q := (h2 p).2.2.2
    refine h3.trans ?_
    rw [show (slowing false t).dqr = 0 from rfl, show (slowing false t).ddqr = 0 from rfl, mulVec_zero, mulVec_zero, gravityWith_slider, add_zero,
      add_zero]
    rfl
  refine ⟨⟨fun t _ _ => hasDerivAt_slowing' t, fun t _ _ => hasDerivAt_slowing t, fun t _ _ => hasDerivAt_const _ _, fun t _ Y f h1 h2 => ?_⟩,
    fun t _ Y h1 k => ?_⟩
  · have h3 : f = frictionOf (slider false) (slider false).dl (slowing false t).dq :=
      funext fun i => congrFun (congrFun (C63_determined (hs t) (h2.1 Nat.one_pos) (C60_link (hs t) Nat.one_pos).1) i) 0
    rw [hY t Y h1, zero_mulVec, zero_add, one_mulVec, h3, friction_slider, show (slowing false t).dqr = 0 from rfl, sub_zero, sub_self]
    have := slowing_balance false t
    rw [friction_slider] at this
    exact this
  · rw [hY t Y h1, transpose_zero, zero_mulVec, mulVec_zero]
    exact (hasDerivAt_const t (0 : ℝ)).congr_deriv neg_zero.symm

/-- The estimate stays wrong, and the slider comes to rest nevertheless, in the place it is meant to reach. -/
example : ∃ R : ℝ → String → Mat → Prop, (∀ t, @Source fl (fileOf (slider false)) (slider false) (slowing false t) (R t)) ∧
    (fun _ => 0) ≠ (fun k : Fin (10 * (slider false).n) => reg (slider false).dyn k) ∧ (slowing false 0).dq - (slowing false 0).dqr ≠ 0 ∧
    AntitoneOn (fun t => @lyapunov fl (slider false) (slider false).dyn 1 (slowing false t) (0 - fun k : Fin (10 * (slider false).n) => reg (slider false).dyn k)) (Set.Ici 0) ∧
    (∀ i, Tendsto (fun t => (slowing false t).dq i - (slowing false t).dqr i) atTop (𝓝 0)) ∧
    ∀ i, Tendsto (fun t => (slowing false t).q i - -(2 * Real.exp (-t))) atTop (𝓝 0) := by
  let _ := fl
  choose r hr using reachable_slowing false
  have hs : ∀ t, Source (fileOf (slider false)) (slider false) (slowing false t) (answers (r t)) := fun t => .robot (hr t)
  obtain ⟨hc, hl⟩ := controlled_slowing hs
  have hW : (1 : Matrix (Fin (10 * (slider false).n)) (Fin (10 * (slider false).n)) ℝ) * 1 = 1 := one_mul 1
  have hq : ∀ {n : ℕ} (v : Fin n → ℝ), 0 ≤ v ⬝ᵥ (1 : Matrix (Fin n) (Fin n) ℝ) *ᵥ v := fun v => by
    rw [one_mulVec]; exact Finset.sum_nonneg fun i _ => mul_self_nonneg (v i)
  have hp : Physical (slider false).dyn (slider false).n := fun i hi => physical_solid i (lt_of_lt_of_le hi (by decide))
  have ho : ∀ i < (slider false).n, 0 < ownInertia (slider false).dyn i (kindOf (slider false) i) := by
    intro i hi
    obtain rfl : i = 0 := Nat.lt_one_iff.1 hi
    rw [show kindOf (slider false) 0 = .prismatic from rfl]
    simp [ownInertia, mass, slider, solid]
  have hb : ∀ t, 0 ≤ t → ∀ i, |(slowing false t).ddq i - (slowing false t).ddqr i| ≤ 1 := by
    intro t ht i
    show |-Real.exp (-t) - 0| ≤ 1
    rw [sub_zero, abs_neg, abs_of_pos (Real.exp_pos _)]
    exact Real.exp_le_one_iff.2 (neg_nonpos.2 ht)
  have hK : ∀ v : Fin (slider false).n → ℝ, 1 * (v ⬝ᵥ v) ≤ v ⬝ᵥ (1 : Matrix (Fin (slider false).n) (Fin (slider false).n) ℝ) *ᵥ v := fun v => by
    rw [one_mulVec, one_mul]
  refine ⟨_, hs, fun e => ?_, fun e => ?_, C74_loses hs (unit_slider false) hc hl hW transpose_one hq,
    (C74_tracks hs (unit_slider false) hc hl hW transpose_one hp ho hq one_pos hK).2 1 hb,
    C74_follows hs (unit_slider false) hc hl hW transpose_one hp ho hq one_pos hK hb (d := fun t _ => -(2 * Real.exp (-t)))
      (d' := fun t _ => 2 * Real.exp (-t)) (l := fun _ => 2) (fun _ => two_pos) (fun t _ _ => ?_) fun t _ _ => ?_⟩
  · have h0 : (0 : ℝ) = reg (slider false).dyn 0 := congrFun e ⟨0, by decide⟩
    simp [reg, linPar, mass, slider, solid] at h0
  · have h0 : Real.exp (-0) - 0 = 0 := congrFun e ⟨0, by decide⟩
    simp at h0
  · refine ((hasDerivAt_slowing t).const_mul 2).neg.congr_deriv ?_
    ring
  · show (0 : ℝ) = 2 * Real.exp (-t) - 2 * (-Real.exp (-t) - -(2 * Real.exp (-t)))
    ring

end Ex

end

end Thunder
