import Verif.Lemmas.RoundingPos
import Verif.Lemmas.AsRead
import Verif.Spec.Returned
import Verif.Props.Balance
import Mathlib.Order.Filter.AtTopBot.Basic

/-!
# Rounding errors of the answers: C76
-/

open scoped Classical
open Matrix

namespace Thunder

noncomputable section

open Spec Robot SX

section

variable [Fl] {y : Yaml}

/-- C76: for every function of the library, and as long as the variables of motion and the symbolic parameters are at most `b`, the
error of every entry of the answer is at most a constant times the error `u` of a single operation.  The constant depends only on `b`, the form of the
robot and the values of the parameters that are not symbolic: it is the same for the robot and for the objects of the generated class, in all states and for
all values of the symbolic parameters. -/
theorem C76 {c₀ : Conf} (hj : JointsOk c₀) {f : String} (hf : f ∈ library c₀) (b : ℝ) :
    ∃ K u₀, 0 ≤ K ∧ 0 < u₀ ∧ ∀ (c : Conf) (s : State c), Retuned c₀ c → Within b c s → ∀ u, 0 ≤ u → u ≤ u₀ → ∀ (m : Machine u) (R R' : String → Mat → Prop),
      OnMachine m y c s R R' → ∀ {k l : ℕ} {A : Matrix (Fin k) (Fin l) ℝ}, Returns R f A → ReturnsNear (K * u) R' f A := by
  obtain ⟨F, hF, rfl⟩ := Fn.mem_library.1 hf
  obtain ⟨S, hS⟩ := Fn.tame (c := c₀) (f := F) hj.1 (typed_of hj)
  obtain ⟨K, u₀, hK, hu, H⟩ := tame_all (le_max_right b 0) (F.expr (base c₀) c₀).elements fun e he => by
    obtain ⟨i, -, j, -, rfl⟩ := mem_elements he
    exact hS i j
  refine ⟨K, u₀, hK, hu, fun c s hc hb u h0 h1 m R R' hm k l A hA => ?_⟩
  have hv : F.Valid c := (hc.valid F).symm ▸ hF
  obtain ⟨hR, ρ, hρ, hρb, ha⟩ := onMachine hm hv
  have hself := Fn.rel_self hR.pos hR.typed hv
  have hG : Returns R F.name (SX.val (env c s) (F.expr (base c) c) (F.rows c) (F.cols c)) := hR.gives F hv rfl rfl rfl rfl
  obtain ⟨m₁, a₁, b₁, c₁, d₁, e₁⟩ := hA
  obtain ⟨m₂, a₂, b₂, c₂, d₂, e₂⟩ := hG
  have hmm : m₁ = m₂ := by
    cases hR with
    | robot h => exact answers_unique _ _ a₁ a₂
    | generated h => exact classAnswers_unique _ _ a₁ a₂
  subst hmm
  obtain rfl : F.rows c = k := b₂.symm.trans b₁
  obtain rfl : F.cols c = l := c₂.symm.trans c₁
  refine ⟨_, ha, hself.rows, hself.cols, ?_, fun i j => ?_⟩
  · rw [List.length_map, length_elements, hself.rows, hself.cols]
  · have hi : (i : ℕ) < (F.expr (base c) c).rows := hself.rows.symm ▸ i.2
    have hj : (j : ℕ) < (F.expr (base c) c).cols := hself.cols.symm ▸ j.2
    have hA : A i j = Expr.eval (env c s) ((F.expr (base c) c).e i j) := Option.some.inj (Option.some.inj ((e₁ i j).symm.trans (e₂ i j)))
    refine ⟨m.ev ρ ((F.expr (base c) c).e i j), ?_, ?_⟩
    · have := getElem?_elements hi hj
      rw [hself.rows] at this
      rw [List.getElem?_map, this]
      rfl
    · rw [hA, ← Expr.eval_congr (hρ i j)]
      have hmem := getElem?_elements hi hj
      rw [hc.expr F] at hmem
      have := H _ (List.mem_of_getElem? hmem) ρ trivial (fun v hv => ?_) u h0 h1 _ (m.rounds ρ _)
      · rw [hc.expr F]
        exact this
      · rw [← hc.expr F] at hv
        exact (hρb b hb i j v hv).trans (le_max_left _ _)

omit [Fl] in
/-- C76: every state lies within some bound. -/
theorem C76_bounded {c : Conf} (s : State c) : ∃ b, Within b c s := by
  have h1 : ∀ {k : ℕ} (v : Fin k → ℝ), ∀ᶠ b in Filter.atTop, ∀ i, |v i| ≤ b := fun v => Filter.eventually_all.2 fun i => Filter.eventually_ge_atTop _
  have h2 : ∀ (k : ℕ) (f : ℕ → ℤ) (v : ℕ → ℝ), ∀ᶠ b in Filter.atTop, ∀ i < k, f i ≠ 0 → |v i| ≤ b := fun k f v =>
    (Filter.eventually_all_finite (Set.finite_lt_nat k)).2 fun i _ => (Filter.eventually_ge_atTop _).mono fun b h _ => h
  obtain ⟨b, h⟩ := ((h1 s.q).and <| (h1 s.dq).and <| (h1 s.ddq).and <| (h1 s.d3q).and <| (h1 s.dqr).and <| (h1 s.ddqr).and <| (h1 s.w).and <|
    (h1 s.x).and <| (h1 s.dx).and <| (h1 s.ddx).and <| (h2 _ c.fdh c.dh).and <| (h2 _ c.fw2l c.w2l).and <| (h2 _ c.fee c.ee).and <| (h2 _ c.fg c.g).and <|
    (h2 _ c.fdyn c.dyn).and <| (h2 _ c.fdl c.dl).and <| (h2 _ c.fK c.K).and <| (h2 _ c.fD c.D).and <| (h2 _ c.fDm c.Dm).and (h2 _ c.fMm c.Mm)).exists
  obtain ⟨a1, a2, a3, a4, a5, a6, a7, a8, a9, a10, a11, a12, a13, a14, a15, a16, a17, a18, a19, a20⟩ := h
  exact ⟨b, a1, a2, a3, a4, a5, a6, a7, a8, a9, a10, a11, a12, a13, a14, a15, a16, a17, a18, a19, a20⟩

/-- C76: a machine without errors gives the exact answers. -/
theorem C76_exact {c : Conf} {s : State c} {m : Machine 0} {R R' : String → Mat → Prop} (h : OnMachine m y c s R R') {f : String} (hf : f ∈ library c)
    {k l : ℕ} {A : Matrix (Fin k) (Fin l) ℝ} (hA : Returns R f A) : Returns R' f A := by
  have hfile : ∃ c₀, Describes y c₀ ∧ JointsOk c₀ ∧ Retuned c₀ c := by
    cases h with
    | robot h => exact h.file
    | generated h => exact h.file
  obtain ⟨c₀, -, hj, hc⟩ := hfile
  obtain ⟨b, hb⟩ := C76_bounded s
  have hf₀ : f ∈ library c₀ := by
    obtain ⟨F, hF, rfl⟩ := Fn.mem_library.1 hf
    exact Fn.mem_library.2 ⟨F, (hc.valid F) ▸ hF, rfl⟩
  obtain ⟨K, u₀, -, hu, H⟩ := C76 hj hf₀ b
  obtain ⟨mat, e1, e2, e3, e4, e5⟩ := H c s hc hb 0 le_rfl hu.le m R R' h hA
  refine ⟨mat, e1, e2, e3, e4, fun i j => ?_⟩
  obtain ⟨x, hx, he⟩ := e5 i j
  rw [mul_zero, abs_nonpos_iff, sub_eq_zero] at he
  rw [hx, he]

/-- C76: when the links are physical and each opposes its own joint, the mass matrix computed with sufficiently small errors is still positive definite, so
that it can be inverted. -/
theorem C76_posdef {c : Conf} (h : Tunes y c) (hU : UnitNumeric c) (hp : Physical c.dyn c.n) (ho : ∀ i < c.n, 0 < ownInertia c.dyn i (kindOf c i)) (b : ℝ) :
    ∃ u₀, 0 < u₀ ∧ ∀ s : State c, Within b c s → ∀ u, 0 ≤ u → u ≤ u₀ → ∀ (m : Machine u) (R R' : String → Mat → Prop), OnMachine m y c s R R' →
      ∃ M : Matrix (Fin c.n) (Fin c.n) ℝ, Returns R' "M" M ∧ (∀ v, v ≠ 0 → 0 < v ⬝ᵥ M *ᵥ v) ∧ M.det ≠ 0 := by
  obtain ⟨c₀, -, hj, hc⟩ := h
  have hjc := hc.joints hj
  have hM : "M" ∈ library c₀ := Fn.mem_library.2 ⟨.M, trivial, rfl⟩
  obtain ⟨K, u₀, hK, hu, H⟩ := C76 hj hM b
  obtain ⟨ε, hε, P⟩ := posdef_near (A := massOf c) (fun i j => continuous_massOf hjc.1 (typed_of hjc) hU (State.zero c) i j)
    (fun q v hv => massOf_pos hjc.1 (typed_of hjc) hU { State.zero c with q := q } hp ho hv) b
  refine ⟨min u₀ (ε / (K + 1)), lt_min hu (by positivity), fun s hb u h0 h1 m R R' hm => ?_⟩
  have hA : Returns R "M" (massOf c s.q) := (C58_matrices (onMachine hm (f := .M) trivial).1 hU).1
  obtain ⟨mat, e1, e2, e3, e4, e5⟩ := H c s hc hb u h0 (h1.trans (min_le_left _ _)) m R R' hm hA
  choose B hB hn using e5
  have hs : K * u ≤ ε := by
    have h2 : u * (K + 1) ≤ ε := (le_div_iff₀ (by linarith)).1 (h1.trans (min_le_right _ _))
    nlinarith
  have hpd := P s.q hb.q (Matrix.of B) fun i j => (hn i j).trans hs
  exact ⟨Matrix.of B, ⟨mat, e1, e2, e3, e4, hB⟩, hpd, det_of_posdef hpd⟩

/-- C76: the computed mass matrix need not be symmetric, but its defect is of the order of the errors. -/
theorem C76_symm {c₀ : Conf} (hj : JointsOk c₀) (b : ℝ) :
    ∃ K u₀, 0 ≤ K ∧ 0 < u₀ ∧ ∀ (c : Conf) (s : State c), Retuned c₀ c → Within b c s → ∀ u, 0 ≤ u → u ≤ u₀ → ∀ (m : Machine u) (R R' : String → Mat → Prop),
      OnMachine m y c s R R' → ∃ M : Matrix (Fin c.n) (Fin c.n) ℝ, Returns R' "M" M ∧ ∀ i j, |M i j - M j i| ≤ K * u := by
  obtain ⟨K, u₀, hK, hu, H⟩ := C76 hj (Fn.mem_library.2 ⟨.M, trivial, rfl⟩ : "M" ∈ library c₀) b
  refine ⟨2 * K, u₀, by positivity, hu, fun c s hc hb u h0 h1 m R R' hm => ?_⟩
  have hS := (onMachine hm (f := .M) trivial).1
  have hA : Returns R "M" (SX.val (env c s) (base c).M c.n c.n) := hS.gives .M trivial (by decide) rfl rfl rfl
  obtain ⟨mat, e1, e2, e3, e4, e5⟩ := H c s hc hb u h0 h1 m R R' hm hA
  choose B hB hn using e5
  refine ⟨Matrix.of B, ⟨mat, e1, e2, e3, e4, hB⟩, fun i j => ?_⟩
  have hs : SX.val (env c s) (base c).M c.n c.n i j = SX.val (env c s) (base c).M c.n c.n j i :=
    (congrFun (congrFun (C10_symm (B := base c) (env c s)) i) j).symm
  have h2 := hn i j
  have h3 := hn j i
  rw [← hs] at h3
  rw [abs_le] at h2 h3 ⊢
  simp only [Matrix.of_apply]
  constructor <;> linarith

end

namespace Ex

/-- The errors are not zero: the computed sum of `x` and `y` may be off by `u` times the sum. -/
example (u : ℝ) (hu : 0 ≤ u) (ρ : Var → ℝ) (x y : Var) : (Expr.add (.var x) (.var y)).Rounded u ρ ((ρ x + ρ y) * (1 + u)) :=
  .add (.var x) (.var y) fun _ => by
    rw [mul_one_add, add_sub_cancel_left, abs_mul, abs_of_nonneg hu, mul_comm]
    exact mul_le_mul_of_nonneg_left (le_max_left _ _) hu

/-- Underflow: a product that is not zero may be computed as zero. -/
example (u : ℝ) (hu : 0 ≤ u) (ρ : Var → ℝ) (x y : Var) (h : |ρ x * ρ y| ≤ u ^ 2) : (Expr.mul (.var x) (.var y)).Rounded u ρ 0 :=
  .mul (.var x) (.var y) fun _ => by
    rw [zero_sub, abs_neg]
    refine h.trans ?_
    rw [sq]
    exact mul_le_mul_of_nonneg_left (le_max_right _ _) hu

/-- Overflow: a product that is too large may be computed as anything. -/
example (u : ℝ) (ρ : Var → ℝ) (x y : Var) (h : 1 < u * |ρ x * ρ y|) (v : ℝ) : (Expr.mul (.var x) (.var y)).Rounded u ρ v :=
  .mul (.var x) (.var y) fun h' => absurd h' (not_le.2 h)

/-- Underflow with the type `double`: the least positive number is `2 ^ (-1074)`, and a quarter of it is rounded to zero. -/
example : nearest (2 ^ (-1076 : ℤ)) = 0 := by
  have h2 : Int.log 2 ((2 : ℝ) ^ (-1076 : ℤ)) = -1076 := by
    exact_mod_cast Int.log_zpow (R := ℝ) (b := 2) (by norm_num) (-1076)
  have h3 : lastDigit (2 ^ (-1076 : ℤ)) = -1074 := by
    rw [lastDigit, abs_of_pos (by positivity), h2]
    norm_num
  have h4 : (2 : ℝ) ^ (-1076 : ℤ) / 2 ^ (-1074 : ℤ) = 1 / 4 := by
    rw [← zpow_sub₀ two_ne_zero]
    norm_num
  rw [nearest, h3, h4, show round (1 / 4 : ℝ) = 0 by rw [round_eq_zero_iff]; constructor <;> norm_num]
  simp

/-- The arm of the examples on any machine: the error of the mass matrix is bounded. -/
example : ∃ K u₀, 0 ≤ K ∧ 0 < u₀ ∧ ∀ u, 0 ≤ u → u ≤ u₀ → ∀ m : Machine u, ∃ r, @Running fl (fileOf arm) armTuned armState r ∧
    ReturnsNear (K * u) (answersOn m r) "M" (@massOf fl armTuned armState.q) := by
  obtain ⟨b, hb⟩ := C76_bounded armState
  obtain ⟨K, u₀, h0, h1, H⟩ := @C76 fl _ _ joints_arm "M" (by decide) b
  refine ⟨K, u₀, h0, h1, fun u hu hu' m => ?_⟩
  obtain ⟨r, h⟩ := running_arm
  exact ⟨r, h, H _ _ retuned_arm hb u hu hu' m _ _ (@OnMachine.robot _ fl _ _ _ _ _ h) (@C58_matrices fl _ _ _ _ (@Source.robot fl _ _ _ _ h) unit_arm).1⟩

/-- The computed inverse need not be the exact one: here that of the number 2. -/
example (u e : ℝ) (h0 : u ≤ 1) (he : |e| ≤ u) : SolvesNear u !![(2 : ℝ)] 0 ![1 / (2 + e)] := fun B hB _ _ _ => by
  have hu : 0 ≤ u := (abs_nonneg e).trans he
  have h2 : 2 + e ≠ 0 := by linarith [(abs_le.1 he).1]
  refine ⟨!![e], fun k l => ?_, ?_⟩
  · fin_cases k; fin_cases l
    exact he.trans (le_mul_of_one_le_right hu hB)
  · funext i
    fin_cases i
    simp [h2]

/-- The damped pseudo-inverse of the arm on any machine. -/
example : ∃ K u₀, 0 ≤ K ∧ 0 < u₀ ∧ ∀ u, 0 ≤ u → u ≤ u₀ → ∀ m : Machine u, ∃ r, @Running fl (fileOf arm) armTuned armState r ∧
    ∃ P : Matrix (Fin armTuned.n) (Fin 6) ℝ, Returns (answers r) "J_ee_pinv" P ∧ ReturnsNear (K * u) (answersOn m r) "J_ee_pinv" P := by
  obtain ⟨b, hb⟩ := C76_bounded armState
  obtain ⟨K, u₀, h0, h1, H⟩ := @C76 fl _ _ joints_arm "J_ee_pinv" (by decide) b
  refine ⟨K, u₀, h0, h1, fun u hu hu' m => ?_⟩
  obtain ⟨r, h⟩ := running_arm
  obtain ⟨P, hP, -⟩ := @C57_pinv fl _ _ _ _ (@Source.robot fl _ _ _ _ h) unit_arm
  exact ⟨r, h, P, hP, H _ _ retuned_arm hb u hu hu' m _ _ (@OnMachine.robot _ fl _ _ _ _ _ h) hP⟩

/-- The answers of the object of the generated class with the arithmetic of the type `double`. -/
example : ∃ g o, @Generated fl (fileOf arm) armTuned armState g o ∧
    @OnMachine _ fl Machine.double (fileOf arm) armTuned armState (classAnswers g o) (classAnswersOn Machine.double g o) := by
  obtain ⟨g, o, h⟩ := generated_arm
  exact ⟨g, o, h, @OnMachine.generated _ fl _ _ _ _ _ _ h⟩

/-- The mass matrix of the arm with solid links, computed with small errors, is invertible. -/
example (b : ℝ) : ∃ u₀, 0 < u₀ ∧ ∀ s : Spec.State solid, Within b solid s → ∀ u, 0 ≤ u → u ≤ u₀ → ∀ m : Machine u, ∃ r, @Running fl (fileOf solid) solid s r ∧
    ∃ M : Matrix (Fin 2) (Fin 2) ℝ, Returns (answersOn m r) "M" M ∧ M.det ≠ 0 := by
  have hd : Describes (fileOf solid) solid := describes_fileOf fun h => nomatch h
  obtain ⟨u₀, h0, H⟩ := @C76_posdef fl _ _ ⟨solid, hd, joints_arm, retuned_refl solid⟩ unit_solid physical_solid own_solid b
  refine ⟨u₀, h0, fun s hb u hu hu' m => ?_⟩
  obtain ⟨r, h⟩ := @C56_reachable fl _ _ _ hd joints_arm (retuned_refl solid) s
  obtain ⟨M, e1, -, e2⟩ := H s hb u hu hu' m _ _ (@OnMachine.robot _ fl _ _ _ _ _ h)
  exact ⟨r, h, M, e1, e2⟩

end Ex

end

end Thunder
