import Verif.Model.Rounding
import Mathlib.Analysis.SpecialFunctions.Trigonometric.Bounds
import Mathlib.Tactic.Positivity
import Mathlib.LinearAlgebra.Matrix.ToLinearEquiv

/-!
# Rounding errors of an expression

`Expr.TameOn P S` are the expressions whose quotients have a denominator bounded away from zero where `P` holds, whose inverses of matrices are
bounded there and whose square roots are those of squares; they are closed under derivatives with respect to the symbols in `S`.  Their rounding errors are at most a constant times `u`, for bounded values
of the symbols (`TameOn.error`).
-/

open scoped Classical

namespace Thunder

noncomputable section

namespace Expr

/-- Expressions whose rounding errors are bounded, when the values of the symbols satisfy `P`. -/
inductive TameOn (P : (Var → ℝ) → Prop) (S : Set Var) : Expr → Prop
  | const (c : ℝ) : TameOn P S (.const c)
  | var (v : Var) : TameOn P S (.var v)
  | add {a b : Expr} (ha : TameOn P S a) (hb : TameOn P S b) : TameOn P S (.add a b)
  | sub {a b : Expr} (ha : TameOn P S a) (hb : TameOn P S b) : TameOn P S (.sub a b)
  | mul {a b : Expr} (ha : TameOn P S a) (hb : TameOn P S b) : TameOn P S (.mul a b)
  | div {a b : Expr} {m : ℝ} (ha : TameOn P S a) (hb : TameOn P S b) (hm : 0 < m) (h : ∀ ρ, P ρ → m ≤ |eval ρ b|) : TameOn P S (.div a b)
  | neg {a : Expr} (ha : TameOn P S a) : TameOn P S (.neg a)
  | sin {a : Expr} (ha : TameOn P S a) : TameOn P S (.sin a)
  | cos {a : Expr} (ha : TameOn P S a) : TameOn P S (.cos a)
  | sqrt {a : Expr} (ha : TameOn P S a) (hd : Disjoint (fv a) S) : TameOn P S (.sqrt (.pow a 2))
  | pow {a : Expr} (ha : TameOn P S a) (n : ℕ) : TameOn P S (.pow a n)
  | inv {n : ℕ} {A : Fin n → Fin n → Expr} {m : ℝ} (hA : ∀ k l, TameOn P S (A k l))
      (h : ∀ ρ, P ρ → ∃ Y, (Matrix.of fun k l => eval ρ (A k l)) * Y = 1 ∧ ∀ k l, |Y k l| ≤ m) (i j : Fin n) : TameOn P S (.inv n A i j)

/-- Expressions whose rounding errors are bounded for all values of the symbols. -/
abbrev Tame (S : Set Var) (e : Expr) : Prop := TameOn (fun _ => True) S e

namespace TameOn

variable {P : (Var → ℝ) → Prop} {S : Set Var} {a b e : Expr}

theorem sadd (ha : TameOn P S a) (hb : TameOn P S b) : TameOn P S (sadd a b) := by
  unfold Expr.sadd; split_ifs <;> first | assumption | exact ha.add hb
theorem ssub (ha : TameOn P S a) (hb : TameOn P S b) : TameOn P S (ssub a b) := by
  unfold Expr.ssub; split_ifs <;> first | assumption | exact hb.neg | exact ha.sub hb
theorem smul (ha : TameOn P S a) (hb : TameOn P S b) : TameOn P S (smul a b) := by
  unfold Expr.smul; split_ifs <;> first | exact .const _ | exact ha.mul hb
theorem sneg (ha : TameOn P S a) : TameOn P S (sneg a) := by
  unfold Expr.sneg; split_ifs <;> first | exact .const _ | exact ha.neg
theorem sdiv {m : ℝ} (ha : TameOn P S a) (hb : TameOn P S b) (hm : 0 < m) (h : ∀ ρ, P ρ → m ≤ |eval ρ b|) : TameOn P S (sdiv a b) := by
  unfold Expr.sdiv; split_ifs <;> first | exact .const _ | exact ha.div hb hm h
theorem sumE {l : List Expr} (h : ∀ e ∈ l, TameOn P S e) : TameOn P S (sumE l) := by
  induction l with
  | nil => exact .const _
  | cons e l ih => exact (h e (by simp)).sadd (ih fun e he => h e (by simp [he]))

theorem mono {T : Set Var} (h : TameOn P S e) (hT : T ⊆ S) : TameOn P T e := by
  induction h with
  | const c => exact .const c
  | var v => exact .var v
  | add _ _ ha hb => exact ha.add hb
  | sub _ _ ha hb => exact ha.sub hb
  | mul _ _ ha hb => exact ha.mul hb
  | div _ _ hm h ha hb => exact ha.div hb hm h
  | neg _ ha => exact ha.neg
  | sin _ ha => exact ha.sin
  | cos _ ha => exact ha.cos
  | sqrt _ hd ha => exact ha.sqrt (hd.mono_right hT)
  | pow _ n ha => exact ha.pow n
  | inv _ h i j ih => exact .inv ih h i j

/-- Derivatives. -/
theorem D (h : TameOn P S e) {v : Var} (hv : v ∈ S) : TameOn P S (D v e) := by
  induction h with
  | const c => exact .const _
  | var w => simp only [Expr.D]; split_ifs <;> exact .const _
  | add _ _ ha hb => exact ha.sadd hb
  | sub _ _ ha hb => exact ha.ssub hb
  | mul ha hb ia ib => exact (ia.smul hb).sadd (ha.smul ib)
  | @div a b m ha hb hm h ia ib =>
    refine ((ia.smul hb).ssub (ha.smul ib)).sdiv (hb.pow 2) (m := m ^ 2) (by positivity) fun ρ hP => ?_
    rw [eval_pow, abs_pow]
    exact pow_le_pow_left₀ hm.le (h ρ hP) 2
  | neg _ ha => exact ha.sneg
  | sin ha ia => exact ha.cos.smul ia
  | cos ha ia => exact (ha.sin.smul ia).sneg
  | @sqrt a _ hd _ =>
    have e : Expr.D v (.pow a 2) = .const 0 := D_eq_zero fun hm => Set.disjoint_left.1 hd hm hv
    show TameOn P S (Expr.sdiv (Expr.D v (.pow a 2)) _)
    rw [e, sdiv_zero_left]
    exact .const _
  | pow ha n ia => exact ((TameOn.const _).smul (ha.pow _)).smul ia
  | inv hA h i j ih =>
    refine TameOn.sneg (.sumE fun e he => ?_)
    obtain ⟨k, -, rfl⟩ := List.mem_map.1 he
    refine .sumE fun e he => ?_
    obtain ⟨l, -, rfl⟩ := List.mem_map.1 he
    exact ((TameOn.inv hA h i k).smul (ih k l)).smul (.inv hA h l j)

end TameOn

/-! ## The error of one operation -/

theorem step {u w W H L v : ℝ} (h0 : 0 ≤ u) (h1 : u ≤ 1) (hL : 0 ≤ L) (hr : u * (H + L) ≤ 1) (hw : |w - W| ≤ L * u) (hW : |W| ≤ H) (hv : Near u w v) :
    |v - W| ≤ (H + 1 + 2 * L) * u := by
  have h2 : |w| ≤ H + L := by
    have : |w| ≤ |w - W| + |W| := by
      have := abs_add_le (w - W) W
      rwa [sub_add_cancel] at this
    nlinarith
  have h4 := hv ((mul_le_mul_of_nonneg_left h2 h0).trans hr)
  have h5 : max |w| u ≤ H + L + 1 := max_le (by linarith) (by linarith [(abs_nonneg W).trans hW])
  have h3 : |v - W| ≤ |v - w| + |w - W| := abs_sub_le _ _ _
  nlinarith

/-- Powers. -/
theorem exists_pow_error {P : ℝ} (hP : 0 ≤ P) (n : ℕ) : ∃ L, 0 ≤ L ∧ ∀ x X, |x| ≤ P → |X| ≤ P → |x ^ n - X ^ n| ≤ L * |x - X| := by
  induction n with
  | zero => exact ⟨0, le_refl _, fun x X _ _ => by simp⟩
  | succ n ih =>
    obtain ⟨L, hL, h⟩ := ih
    refine ⟨L * P + P ^ n, by positivity, fun x X hx hX => ?_⟩
    have e : x ^ (n + 1) - X ^ (n + 1) = (x ^ n - X ^ n) * x + X ^ n * (x - X) := by ring
    rw [e]
    refine (abs_add_le _ _).trans ?_
    rw [abs_mul, abs_mul, abs_pow, add_mul]
    have h1 := h x X hx hX
    have h2 : |X| ^ n ≤ P ^ n := pow_le_pow_left₀ (abs_nonneg _) hX n
    have h3 := abs_nonneg (x - X)
    refine add_le_add ?_ (mul_le_mul_of_nonneg_right h2 h3)
    calc |x ^ n - X ^ n| * |x| ≤ (L * |x - X|) * P := mul_le_mul h1 hx (abs_nonneg _) (by positivity)
      _ = L * P * |x - X| := by ring

/-- The square root of a square. -/
theorem sqrt_error {u x w : ℝ} (h0 : 0 ≤ u) (h1 : u ≤ 1) (hr : u * x ^ 2 ≤ 1) (h : Near u (x ^ 2) w) : |Real.sqrt w - abs x| ≤ (|x| + 1) * u := by
  have h := h (by rwa [abs_of_nonneg (sq_nonneg x)])
  rw [abs_of_nonneg (sq_nonneg x)] at h
  have hx := abs_nonneg x
  have hs : |x| ^ 2 = x ^ 2 := sq_abs x
  rcases le_total (x ^ 2) u with hxu | hxu
  · rw [max_eq_right hxu] at h
    obtain ⟨h2, h3⟩ := abs_le.1 h
    refine le_trans ?_ (show u ≤ (|x| + 1) * u by nlinarith)
    rw [abs_le]
    constructor
    · have : |x| ≤ Real.sqrt w + u := by
        rcases le_total 0 w with hw | hw
        · refine abs_le_of_sq_le_sq' ?_ (by positivity) |>.2
          nlinarith [Real.sq_sqrt hw, Real.sqrt_nonneg w, mul_nonneg (Real.sqrt_nonneg w) h0]
        · rw [Real.sqrt_eq_zero_of_nonpos hw, zero_add]
          refine abs_le_of_sq_le_sq' ?_ h0 |>.2
          nlinarith
      linarith
    · have : Real.sqrt w ≤ |x| + u := Real.sqrt_le_iff.2 ⟨by positivity, by nlinarith [mul_nonneg hx h0]⟩
      linarith
  · rw [max_eq_left hxu] at h
    obtain ⟨h2, h3⟩ := abs_le.1 h
    refine le_trans ?_ (show |x| * u ≤ (|x| + 1) * u by nlinarith)
    rw [abs_le]
    constructor
    · have : (1 - u) * |x| ≤ Real.sqrt w := by
        refine Real.le_sqrt_of_sq_le ?_
        have e : ((1 - u) * |x|) ^ 2 = (1 - u) ^ 2 * x ^ 2 := by rw [mul_pow, hs]
        rw [e]
        nlinarith [sq_nonneg x, mul_nonneg (mul_nonneg h0 (sub_nonneg.2 h1)) (sq_nonneg x)]
      nlinarith
    · have : Real.sqrt w ≤ (1 + u) * |x| := by
        refine Real.sqrt_le_iff.2 ⟨by positivity, ?_⟩
        have e : ((1 + u) * |x|) ^ 2 = (1 + u) ^ 2 * x ^ 2 := by rw [mul_pow, hs]
        rw [e]
        nlinarith [sq_nonneg x, mul_nonneg (mul_nonneg h0 h0) (sq_nonneg x), mul_nonneg h0 (sq_nonneg x)]
      nlinarith

/-- The rounding errors of the expression are at most `K u` for `u ≤ u₀` and values of its symbols up to `b`; its exact values are at most `H`. -/
structure Err (P : (Var → ℝ) → Prop) (b : ℝ) (e : Expr) (K H u₀ : ℝ) : Prop where
  hK : 0 ≤ K
  hH : 0 ≤ H
  pos : 0 < u₀
  one : u₀ ≤ 1
  val : ∀ ρ : Var → ℝ, P ρ → (∀ v ∈ fv e, |ρ v| ≤ b) → |eval ρ e| ≤ H
  err : ∀ ρ : Var → ℝ, P ρ → (∀ v ∈ fv e, |ρ v| ≤ b) → ∀ u, 0 ≤ u → u ≤ u₀ → ∀ v, Rounded u ρ e v → |v - eval ρ e| ≤ K * u

/-- An expression whose value is the result of an operation. -/
theorem Err.op {P : (Var → ℝ) → Prop} {b : ℝ} {e : Expr} {H L u₁ : ℝ} (hH : 0 ≤ H) (hL : 0 ≤ L) (hp : 0 < u₁) (h1 : u₁ ≤ 1)
    (val : ∀ ρ : Var → ℝ, P ρ → (∀ v ∈ fv e, |ρ v| ≤ b) → |eval ρ e| ≤ H)
    (err : ∀ ρ : Var → ℝ, P ρ → (∀ v ∈ fv e, |ρ v| ≤ b) → ∀ u, 0 ≤ u → u ≤ u₁ → ∀ v, Rounded u ρ e v → ∃ w, |w - eval ρ e| ≤ L * u ∧ Near u w v) :
    Err P b e (H + 1 + 2 * L) H (min u₁ (1 / (H + L + 1))) where
  hK := by positivity
  hH := hH
  pos := lt_min hp (by positivity)
  one := (min_le_left _ _).trans h1
  val := val
  err ρ hP hρ u h0 hu v hv := by
    obtain ⟨w, hw, h⟩ := err ρ hP hρ u h0 (hu.trans (min_le_left _ _)) v hv
    refine step h0 (hu.trans ((min_le_left _ _).trans h1)) hL ?_ hw (val ρ hP hρ) h
    have := (le_div_iff₀ (by positivity)).1 (hu.trans (min_le_right _ _))
    nlinarith

/-- The solution of a system whose matrix `x` is close to a matrix `A` with bounded inverse. -/
theorem solve_bound {n : ℕ} {A x Y : Matrix (Fin n) (Fin n) ℝ} {m η : ℝ} (hY : A * Y = 1) (hm : ∀ k l, |Y k l| ≤ m) (hm0 : 0 ≤ m)
    (hη : ∀ k l, |x k l - A k l| ≤ η) (hη0 : 0 ≤ η) (hs : n ^ 2 * m * η ≤ 1 / 2) {w r : Fin n → ℝ} (hw : Matrix.mulVec x w = r) {R : ℝ} (hR : 0 ≤ R)
    (hr : ∀ i, |Matrix.mulVec Y r i| ≤ R) : (∀ i, |w i| ≤ 2 * R) ∧ ∀ i, |w i - Matrix.mulVec Y r i| ≤ n ^ 2 * m * η * (2 * R) := by
  have hYA : Y * A = 1 := mul_eq_one_comm.1 hY
  have hF : ∀ k l, |(Y * (x - A)) k l| ≤ n * (m * η) := fun k l => by
    rw [Matrix.mul_apply]
    refine (Finset.abs_sum_le_sum_abs _ _).trans ((Finset.sum_le_sum (g := fun _ => m * η) fun i _ => ?_).trans_eq (by simp))
    rw [abs_mul]
    exact mul_le_mul (hm _ _) (hη _ _) (abs_nonneg _) hm0
  have e : ∀ i, w i - Matrix.mulVec Y r i = - Matrix.mulVec (Y * (x - A)) w i := fun i => by
    rw [Matrix.mul_sub, hYA, Matrix.sub_mulVec, Matrix.one_mulVec, ← Matrix.mulVec_mulVec, hw, Pi.sub_apply]
    ring
  have hb : ∀ i, |w i - Matrix.mulVec Y r i| ≤ n ^ 2 * m * η * ‖w‖ := fun i => by
    rw [e, abs_neg]
    show |∑ l, (Y * (x - A)) i l * w l| ≤ _
    refine (Finset.abs_sum_le_sum_abs _ _).trans ((Finset.sum_le_sum (g := fun _ => n * (m * η) * ‖w‖) fun l _ => ?_).trans_eq ?_)
    · rw [abs_mul]
      exact mul_le_mul (hF i l) (norm_le_pi_norm w l) (abs_nonneg _) (by positivity)
    · rw [Finset.sum_const, Finset.card_univ, Fintype.card_fin, nsmul_eq_mul]
      ring
  have hn : ‖w‖ ≤ 2 * R := by
    have h1 : ‖w‖ ≤ R + 1 / 2 * ‖w‖ := by
      refine (pi_norm_le_iff_of_nonneg (by positivity)).2 fun i => ?_
      rw [Real.norm_eq_abs]
      have h2 := (hb i).trans (mul_le_mul_of_nonneg_right hs (norm_nonneg w))
      have h3 := abs_add_le (w i - Matrix.mulVec Y r i) (Matrix.mulVec Y r i)
      rw [sub_add_cancel] at h3
      linarith [hr i]
    linarith
  exact ⟨fun i => (norm_le_pi_norm w i).trans hn, fun i => (hb i).trans (mul_le_mul_of_nonneg_left hn (by positivity))⟩

/-- Such a matrix is regular. -/
theorem det_near {n : ℕ} {A x Y : Matrix (Fin n) (Fin n) ℝ} {m η : ℝ} (hY : A * Y = 1) (hm : ∀ k l, |Y k l| ≤ m) (hm0 : 0 ≤ m)
    (hη : ∀ k l, |x k l - A k l| ≤ η) (hη0 : 0 ≤ η) (hs : n ^ 2 * m * η ≤ 1 / 2) : x.det ≠ 0 := fun h => by
  obtain ⟨w, hw0, hw⟩ := Matrix.exists_mulVec_eq_zero_iff.2 h
  refine hw0 (funext fun i => ?_)
  have := (solve_bound hY hm hm0 hη hη0 hs hw le_rfl fun i => by rw [Matrix.mulVec_zero, Pi.zero_apply, abs_zero]).1 i
  rw [mul_zero] at this
  exact abs_nonpos_iff.1 this

/-- One bound for finitely many expressions. -/
theorem Err.uniform {P : (Var → ℝ) → Prop} {b : ℝ} {n : ℕ} {A : Fin n → Fin n → Expr} (h : ∀ k l, ∃ K H u₀, Err P b (A k l) K H u₀) :
    ∃ K H u₀, 0 ≤ K ∧ 0 ≤ H ∧ 0 < u₀ ∧ u₀ ≤ 1 ∧ ∀ k l, Err P b (A k l) K H u₀ := by
  choose K H t E using h
  obtain ⟨K', hK'⟩ := ((Filter.eventually_ge_atTop (0 : ℝ)).and (Filter.eventually_all.2 fun k => Filter.eventually_all.2 fun l =>
    Filter.eventually_ge_atTop (K k l))).exists
  obtain ⟨H', hH'⟩ := ((Filter.eventually_ge_atTop (0 : ℝ)).and (Filter.eventually_all.2 fun k => Filter.eventually_all.2 fun l =>
    Filter.eventually_ge_atTop (H k l))).exists
  obtain ⟨u', hu'⟩ := ((show ∀ᶠ t in nhdsWithin (0 : ℝ) (Set.Ioi 0), t ∈ Set.Ioc (0 : ℝ) 1 from Ioc_mem_nhdsGT one_pos).and (Filter.eventually_all.2 fun k =>
    Filter.eventually_all.2 fun l => (show ∀ᶠ s in nhdsWithin (0 : ℝ) (Set.Ioi 0), s ∈ Set.Ioc (0 : ℝ) (t k l) from Ioc_mem_nhdsGT (E k l).pos))).exists
  refine ⟨K', H', u', hK'.1, hH'.1, hu'.1.1, hu'.1.2, fun k l => ⟨hK'.1, hH'.1, hu'.1.1, hu'.1.2, fun ρ hP hρ => ((E k l).val ρ hP hρ).trans (hH'.2 k l),
    fun ρ hP hρ u h0 h1 v hv => ((E k l).err ρ hP hρ u h0 (h1.trans (hu'.2 k l).2) v hv).trans (mul_le_mul_of_nonneg_right (hK'.2 k l) h0)⟩⟩

/-- Bounded rounding errors. -/
theorem TameOn.error {P : (Var → ℝ) → Prop} {S : Set Var} {e : Expr} (h : TameOn P S e) {b : ℝ} (hb0 : 0 ≤ b) : ∃ K H u₀, Err P b e K H u₀ := by
  induction h with
  | const c =>
    refine ⟨_, |c|, _, .op (L := 0) (abs_nonneg _) le_rfl one_pos le_rfl (fun ρ _ _ => le_refl _) fun ρ _ _ u _ _ v hv => ?_⟩
    cases hv with
    | const h => exact ⟨c, by simp [eval], h⟩
  | var x =>
    refine ⟨0, b, 1, le_refl _, hb0, one_pos, le_refl _, fun ρ hP hρ => hρ x rfl, fun ρ _ _ u _ _ v hv => ?_⟩
    cases hv with
    | var => simp
  | @add a b' _ _ ia ib =>
    obtain ⟨Ka, Ha, ua, A⟩ := ia
    obtain ⟨Kb, Hb, ub, B⟩ := ib
    have hK := A.hK; have hH := A.hH; have hK' := B.hK; have hH' := B.hH
    have val : ∀ ρ : Var → ℝ, P ρ → (∀ v ∈ fv (.add a b'), |ρ v| ≤ b) → |eval ρ (.add a b')| ≤ Ha + Hb := fun ρ hP hρ =>
      (abs_add_le _ _).trans (add_le_add (A.val ρ hP fun v hv => hρ v (.inl hv)) (B.val ρ hP fun v hv => hρ v (.inr hv)))
    refine ⟨_, Ha + Hb, _, .op (L := Ka + Kb) (by positivity) (by positivity) (lt_min A.pos B.pos) ((min_le_left _ _).trans A.one) val
      fun ρ hP hρ u h0 hu v hv => ?_⟩
    cases hv with
    | @add _ _ x y _ hx hy h =>
      have h1 := A.err ρ hP (fun v hv => hρ v (.inl hv)) u h0 (hu.trans (min_le_left _ _)) x hx
      have h2 := B.err ρ hP (fun v hv => hρ v (.inr hv)) u h0 (hu.trans (min_le_right _ _)) y hy
      refine ⟨_, ?_, h⟩
      have e : x + y - eval ρ (.add a b') = (x - eval ρ a) + (y - eval ρ b') := by simp only [eval]; ring
      rw [e, add_mul]
      exact (abs_add_le _ _).trans (add_le_add h1 h2)
  | @sub a b' _ _ ia ib =>
    obtain ⟨Ka, Ha, ua, A⟩ := ia
    obtain ⟨Kb, Hb, ub, B⟩ := ib
    have hK := A.hK; have hH := A.hH; have hK' := B.hK; have hH' := B.hH
    have val : ∀ ρ : Var → ℝ, P ρ → (∀ v ∈ fv (.sub a b'), |ρ v| ≤ b) → |eval ρ (.sub a b')| ≤ Ha + Hb := fun ρ hP hρ =>
      (abs_sub _ _).trans (add_le_add (A.val ρ hP fun v hv => hρ v (.inl hv)) (B.val ρ hP fun v hv => hρ v (.inr hv)))
    refine ⟨_, Ha + Hb, _, .op (L := Ka + Kb) (by positivity) (by positivity) (lt_min A.pos B.pos) ((min_le_left _ _).trans A.one) val
      fun ρ hP hρ u h0 hu v hv => ?_⟩
    cases hv with
    | @sub _ _ x y _ hx hy h =>
      have h1 := A.err ρ hP (fun v hv => hρ v (.inl hv)) u h0 (hu.trans (min_le_left _ _)) x hx
      have h2 := B.err ρ hP (fun v hv => hρ v (.inr hv)) u h0 (hu.trans (min_le_right _ _)) y hy
      refine ⟨_, ?_, h⟩
      have e : x - y - eval ρ (.sub a b') = (x - eval ρ a) - (y - eval ρ b') := by simp only [eval]; ring
      rw [e, add_mul]
      exact (abs_sub _ _).trans (add_le_add h1 h2)
  | @mul a b' _ _ ia ib =>
    obtain ⟨Ka, Ha, ua, A⟩ := ia
    obtain ⟨Kb, Hb, ub, B⟩ := ib
    have hK := A.hK; have hH := A.hH; have hK' := B.hK; have hH' := B.hH
    have val : ∀ ρ : Var → ℝ, P ρ → (∀ v ∈ fv (.mul a b'), |ρ v| ≤ b) → |eval ρ (.mul a b')| ≤ Ha * Hb := fun ρ hP hρ => by
      rw [eval, abs_mul]
      exact mul_le_mul (A.val ρ hP fun v hv => hρ v (.inl hv)) (B.val ρ hP fun v hv => hρ v (.inr hv)) (abs_nonneg _) hH
    refine ⟨_, Ha * Hb, _, .op (L := (Ha + Ka) * Kb + Ka * Hb) (by positivity) (by positivity) (lt_min A.pos B.pos)
      ((min_le_left _ _).trans A.one) val fun ρ hP hρ u h0 hu v hv => ?_⟩
    cases hv with
    | @mul _ _ x y _ hx hy h =>
      have hu1 : u ≤ 1 := hu.trans ((min_le_left _ _).trans A.one)
      have h1 := A.err ρ hP (fun v hv => hρ v (.inl hv)) u h0 (hu.trans (min_le_left _ _)) x hx
      have h2 := B.err ρ hP (fun v hv => hρ v (.inr hv)) u h0 (hu.trans (min_le_right _ _)) y hy
      have h3 := A.val ρ hP fun v hv => hρ v (.inl hv)
      have h4 := B.val ρ hP fun v hv => hρ v (.inr hv)
      have h5 : |x| ≤ Ha + Ka := by
        have : |x| ≤ |x - eval ρ a| + |eval ρ a| := by
          have := abs_add_le (x - eval ρ a) (eval ρ a)
          rwa [sub_add_cancel] at this
        nlinarith
      refine ⟨_, ?_, h⟩
      have e : x * y - eval ρ (.mul a b') = x * (y - eval ρ b') + (x - eval ρ a) * eval ρ b' := by simp only [eval]; ring
      rw [e]
      refine (abs_add_le _ _).trans ?_
      rw [abs_mul, abs_mul, add_mul]
      refine add_le_add ?_ ?_
      · rw [mul_assoc]
        exact mul_le_mul h5 h2 (abs_nonneg _) (by positivity)
      · calc |x - eval ρ a| * |eval ρ b'| ≤ (Ka * u) * Hb := mul_le_mul h1 h4 (abs_nonneg _) (by positivity)
          _ = Ka * Hb * u := by ring
  | @div a b' m _ _ hm hd ia ib =>
    obtain ⟨Ka, Ha, ua, A⟩ := ia
    obtain ⟨Kb, Hb, ub, B⟩ := ib
    have hK := A.hK; have hH := A.hH; have hK' := B.hK; have hH' := B.hH
    have val : ∀ ρ : Var → ℝ, P ρ → (∀ v ∈ fv (.div a b'), |ρ v| ≤ b) → |eval ρ (.div a b')| ≤ Ha / m := fun ρ hP hρ => by
      rw [eval, abs_div]
      exact div_le_div₀ hH (A.val ρ hP fun v hv => hρ v (.inl hv)) hm (hd ρ hP)
    refine ⟨_, Ha / m, _, .op (L := (Ka * Hb + Ha * Kb) * (2 / m ^ 2)) (u₁ := min (min ua ub) (m / (2 * (Kb + 1)))) (by positivity) (by positivity)
      (lt_min (lt_min A.pos B.pos) (by positivity)) (((min_le_left _ _).trans (min_le_left _ _)).trans A.one) val fun ρ hP hρ u h0 hu v hv => ?_⟩
    cases hv with
    | @div _ _ x y _ hx hy h =>
      have hu1 : u ≤ 1 := hu.trans (((min_le_left _ _).trans (min_le_left _ _)).trans A.one)
      have h1 := A.err ρ hP (fun v hv => hρ v (.inl hv)) u h0 (hu.trans ((min_le_left _ _).trans (min_le_left _ _))) x hx
      have h2 := B.err ρ hP (fun v hv => hρ v (.inr hv)) u h0 (hu.trans ((min_le_left _ _).trans (min_le_right _ _))) y hy
      have h3 := A.val ρ hP fun v hv => hρ v (.inl hv)
      have h4 := B.val ρ hP fun v hv => hρ v (.inr hv)
      have h5 := hd ρ hP
      have h6 : m / 2 ≤ |y| := by
        have h7 : u * (2 * (Kb + 1)) ≤ m := (le_div_iff₀ (by positivity)).1 (hu.trans (min_le_right _ _))
        have h8 : |eval ρ b'| ≤ |y - eval ρ b'| + |y| := by
          have := abs_sub_le (eval ρ b') y 0
          rwa [sub_zero, sub_zero, abs_sub_comm] at this
        nlinarith
      have hy0 : y ≠ 0 := fun h => by
        rw [h, abs_zero] at h6
        linarith
      have hY0 : eval ρ b' ≠ 0 := fun h => by
        rw [h, abs_zero] at h5
        linarith
      refine ⟨_, ?_, h⟩
      have e : x / y - eval ρ (.div a b') = ((x - eval ρ a) * eval ρ b' - eval ρ a * (y - eval ρ b')) / (y * eval ρ b') := by
        simp only [eval]
        field_simp
        ring
      rw [e, abs_div, abs_mul y]
      have h7 : |(x - eval ρ a) * eval ρ b' - eval ρ a * (y - eval ρ b')| ≤ (Ka * Hb + Ha * Kb) * u := by
        refine (abs_sub _ _).trans ?_
        rw [abs_mul, abs_mul, add_mul]
        refine add_le_add ?_ ?_
        · calc |x - eval ρ a| * |eval ρ b'| ≤ (Ka * u) * Hb := mul_le_mul h1 h4 (abs_nonneg _) (by positivity)
            _ = Ka * Hb * u := by ring
        · calc |eval ρ a| * |y - eval ρ b'| ≤ Ha * (Kb * u) := mul_le_mul h3 h2 (abs_nonneg _) hH
            _ = Ha * Kb * u := by ring
      have h8 : m / 2 * m ≤ |y| * |eval ρ b'| := mul_le_mul h6 h5 hm.le (abs_nonneg _)
      calc |(x - eval ρ a) * eval ρ b' - eval ρ a * (y - eval ρ b')| / (|y| * |eval ρ b'|) ≤ ((Ka * Hb + Ha * Kb) * u) / (m / 2 * m) :=
            div_le_div₀ (by positivity) h7 (by positivity) h8
        _ = (Ka * Hb + Ha * Kb) * (2 / m ^ 2) * u := by field_simp
  | @neg a _ ia =>
    obtain ⟨K, H, u₀, A⟩ := ia
    refine ⟨K, H, u₀, A.hK, A.hH, A.pos, A.one, fun ρ hP hρ => ?_, fun ρ hP hρ u h0 hu v hv => ?_⟩
    · rw [eval_neg, abs_neg]
      exact A.val ρ hP hρ
    · cases hv with
      | @neg _ x hx =>
        have e : -x - eval ρ (.neg a) = -(x - eval ρ a) := by rw [eval_neg]; ring
        rw [e, abs_neg]
        exact A.err ρ hP hρ u h0 hu x hx
  | @sin a _ ia =>
    obtain ⟨K, H, u₀, A⟩ := ia
    have hK := A.hK
    refine ⟨_, 1, _, .op (L := K) one_pos.le hK A.pos A.one (fun ρ hP hρ => Real.abs_sin_le_one _) fun ρ hP hρ u h0 hu v hv => ?_⟩
    cases hv with
    | @sin _ x _ hx h =>
      exact ⟨_, (Real.abs_sin_sub_sin_le _ _).trans (A.err ρ hP hρ u h0 hu x hx), h⟩
  | @cos a _ ia =>
    obtain ⟨K, H, u₀, A⟩ := ia
    have hK := A.hK
    refine ⟨_, 1, _, .op (L := K) one_pos.le hK A.pos A.one (fun ρ hP hρ => Real.abs_cos_le_one _) fun ρ hP hρ u h0 hu v hv => ?_⟩
    cases hv with
    | @cos _ x _ hx h =>
      exact ⟨_, (Real.abs_cos_sub_cos_le _ _).trans (A.err ρ hP hρ u h0 hu x hx), h⟩
  | @sqrt a _ _ ia =>
    obtain ⟨K, H, u₀, A⟩ := ia
    have hK := A.hK; have hH := A.hH
    have val : ∀ ρ : Var → ℝ, P ρ → (∀ v ∈ fv (.sqrt (.pow a 2)), |ρ v| ≤ b) → |eval ρ (.sqrt (.pow a 2))| ≤ H := fun ρ hP hρ => by
      rw [eval_sqrt, eval_pow, Real.sqrt_sq_eq_abs, abs_abs]
      exact A.val ρ hP hρ
    refine ⟨_, H, _, .op (L := H + 1 + 2 * K) (u₁ := min u₀ (1 / ((H + K) ^ 2 + 1))) hH (by positivity) (lt_min A.pos (by positivity))
      ((min_le_left _ _).trans A.one) val fun ρ hP hρ u h0 hu' v hv => ?_⟩
    have hu := hu'.trans (min_le_left _ _)
    cases hv with
    | @sqrt _ w _ hw h =>
      cases hw with
      | @pow _ _ x _ hx h' =>
        have hu1 := hu.trans A.one
        have h1 := A.err ρ hP hρ u h0 hu x hx
        have h3 := A.val ρ hP hρ
        have h5 : |x| ≤ H + K := by
          have : |x| ≤ |x - eval ρ a| + |eval ρ a| := by
            have := abs_add_le (x - eval ρ a) (eval ρ a)
            rwa [sub_add_cancel] at this
          nlinarith
        refine ⟨_, ?_, h⟩
        rw [eval_sqrt, eval_pow, Real.sqrt_sq_eq_abs]
        have hr : u * x ^ 2 ≤ 1 := by
          have h9 := (le_div_iff₀ (by positivity)).1 (hu'.trans (min_le_right _ _))
          have h10 : x ^ 2 ≤ (H + K) ^ 2 := by
            rw [← sq_abs]
            exact pow_le_pow_left₀ (abs_nonneg _) h5 2
          nlinarith
        have h6 := sqrt_error h0 hu1 hr h'
        have h7 : |abs x - abs (eval ρ a)| ≤ |x - eval ρ a| := abs_abs_sub_abs_le_abs_sub _ _
        have h8 : |Real.sqrt w - abs (eval ρ a)| ≤ |Real.sqrt w - abs x| + |abs x - abs (eval ρ a)| := abs_sub_le _ _ _
        nlinarith
  | @pow a _ n ia =>
    obtain ⟨K, H, u₀, A⟩ := ia
    have hK := A.hK; have hH := A.hH
    have val : ∀ ρ : Var → ℝ, P ρ → (∀ v ∈ fv (.pow a n), |ρ v| ≤ b) → |eval ρ (.pow a n)| ≤ H ^ n := fun ρ hP hρ => by
      rw [eval_pow, abs_pow]
      exact pow_le_pow_left₀ (abs_nonneg _) (A.val ρ hP hρ) n
    obtain ⟨L, hL, hpow⟩ := exists_pow_error (P := H + K) (by positivity) n
    refine ⟨_, H ^ n, _, .op (L := L * K) (by positivity) (by positivity) A.pos A.one val fun ρ hP hρ u h0 hu v hv => ?_⟩
    cases hv with
    | @pow _ _ x _ hx h =>
      have hu1 := hu.trans A.one
      have h1 := A.err ρ hP hρ u h0 hu x hx
      have h3 := A.val ρ hP hρ
      have h5 : |x| ≤ H + K := by
        have : |x| ≤ |x - eval ρ a| + |eval ρ a| := by
          have := abs_add_le (x - eval ρ a) (eval ρ a)
          rwa [sub_add_cancel] at this
        nlinarith
      refine ⟨_, ?_, h⟩
      refine (hpow x (eval ρ a) h5 (by linarith)).trans ?_
      rw [mul_assoc]
      exact mul_le_mul_of_nonneg_left h1 hL
  | @inv n A m _ hinv i j ih =>
    obtain ⟨K, H, t, hK, hH, ht, ht1, E⟩ := Err.uniform ih
    set M := max m 1 with hM
    have hM1 : 1 ≤ M := le_max_right _ _
    set B := max (H + K) (2 * M) with hB
    have hB2 : 2 * M ≤ B := le_max_right _ _
    have hB0 : 0 ≤ B := by linarith
    have hn0 : (0 : ℝ) ≤ n := Nat.cast_nonneg n
    have hval : ∀ ρ, P ρ → ∀ Y, (Matrix.of fun k l => eval ρ (A k l)) * Y = 1 → eval ρ (.inv n A i j) = Y i j := fun ρ hP Y hY => by
      rw [eval, Matrix.inv_eq_right_inv hY]
    refine ⟨n ^ 2 * M * (K + B) * (2 * M), M, min t (min (1 / ((n * B) ^ 4 + 1)) (1 / (2 * (n ^ 2 * M * (K + B)) + 1))), by positivity, by positivity,
      lt_min ht (lt_min (by positivity) (by positivity)), (min_le_left _ _).trans ht1, fun ρ hP _ => ?_, fun ρ hP hρ u h0 hu v hv => ?_⟩
    · obtain ⟨Y, hY, hm⟩ := hinv ρ hP
      rw [hval ρ hP Y hY]
      exact (hm i j).trans (le_max_left _ _)
    · obtain ⟨Y, hY, hm⟩ := hinv ρ hP
      rw [hval ρ hP Y hY]
      have hm' : ∀ k l, |Y k l| ≤ M := fun k l => (hm k l).trans (le_max_left _ _)
      have hu1 : u ≤ 1 := hu.trans ((min_le_left _ _).trans ht1)
      have hs1 : u * (n * B) ^ 4 ≤ 1 := by
        have := (le_div_iff₀ (by positivity)).1 (hu.trans ((min_le_right _ _).trans (min_le_left _ _)))
        linarith
      have hs2 : n ^ 2 * M * ((K + B) * u) ≤ 1 / 2 := by
        have := (le_div_iff₀ (by positivity)).1 (hu.trans ((min_le_right _ _).trans (min_le_right _ _)))
        nlinarith
      have hs3 : n ^ 2 * M * (K * u) ≤ 1 / 2 :=
        (mul_le_mul_of_nonneg_left (mul_le_mul_of_nonneg_right (by linarith) h0) (by positivity)).trans hs2
      have hcol : ∀ j k, |Matrix.mulVec Y (Pi.single j 1) k| ≤ M := fun j k => by
        rw [Matrix.mulVec_single_one]
        exact hm' k j
      cases hv with
      | @inv _ _ x X _ hA hX _ =>
        have hx : ∀ k l, |x k l - eval ρ (A k l)| ≤ K * u := fun k l =>
          (E k l).err ρ hP (fun v hv => hρ v ⟨k, l, hv⟩) u h0 (hu.trans (min_le_left _ _)) _ (hA k l)
        have hdet := det_near (x := Matrix.of x) hY hm' (by linarith) hx (by positivity) hs3
        have hxx : Matrix.of x * (Matrix.of x)⁻¹ = 1 := Matrix.mul_nonsing_inv _ (isUnit_iff_ne_zero.2 hdet)
        have hxB : ∀ k l, |x k l| ≤ B := fun k l => by
          have h1 := (E k l).val ρ hP fun v hv => hρ v ⟨k, l, hv⟩
          have h2 := abs_add_le (x k l - eval ρ (A k l)) (eval ρ (A k l))
          rw [sub_add_cancel] at h2
          refine le_trans ?_ (le_max_left _ _)
          nlinarith [hx k l]
        have hxi : ∀ k l, |(Matrix.of x)⁻¹ k l| ≤ B := fun k l => by
          refine ((solve_bound (x := Matrix.of x) hY hm' (by linarith) hx (by positivity) hs3 (w := fun k => (Matrix.of x)⁻¹ k l) (r := Pi.single l 1) ?_
            (by linarith) (hcol l)).1 k).trans hB2
          funext k
          have h2 := congrFun (congrFun hxx k) l
          rw [Matrix.mul_apply, Matrix.one_apply] at h2
          rw [Pi.single_apply]
          exact h2
        obtain ⟨F, hF, hsol⟩ := hX B (by linarith) hdet (fun k l => ⟨hxB k l, hxi k l⟩) hs1
        have hxF : ∀ k l, |(Matrix.of x + F) k l - Matrix.of (fun k l => eval ρ (A k l)) k l| ≤ (K + B) * u := fun k l => by
          show |x k l + F k l - eval ρ (A k l)| ≤ _
          rw [show x k l + F k l - eval ρ (A k l) = (x k l - eval ρ (A k l)) + F k l by ring, add_mul, mul_comm B u]
          exact (abs_add_le _ _).trans (add_le_add (hx k l) (hF k l))
        have := (solve_bound hY hm' (by linarith) hxF (by positivity) hs2 hsol (by linarith) (hcol j)).2 i
        rw [Matrix.mulVec_single_one] at this
        refine this.trans_eq ?_
        ring

end Expr

end

end Thunder
