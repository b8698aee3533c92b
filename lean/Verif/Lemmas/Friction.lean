import Verif.Lemmas.Time
import Verif.Spec.Friction

/-!
# Values of the friction and elastic coupling expressions
-/

set_option linter.unusedSectionVars false

open scoped Classical

namespace Thunder

noncomputable section

/-- Values of a parameter vector. -/
def parV (ρ : Var → ℝ) (A : SX) (k : ℕ) : ℝ := Expr.eval ρ (A.e k 0)

theorem parV_setV {nm : String} {k : ℕ} {A : SX} (h : ParVec nm k A) {name : String} (hn : nm ≠ name) (ρ : Var → ℝ) {n : ℕ}
    (x : Fin n → ℝ) (i : ℕ) : parV (setV name ρ x) A i = parV ρ A i :=
  Expr.eval_congr fun v hv => setV_ne (by rw [(h.over _ _ hv).1]; exact hn)

/-- `sqrt(v²)·v^k` for odd `k` and `v^(k+1)` for even `k` are both `|v|^k v`. -/
theorem eval_fricTerm (ρ : Var → ℝ) (v : Expr) (k : ℕ) :
    Expr.eval ρ (fricTerm v k) = |Expr.eval ρ v| ^ k * Expr.eval ρ v := by
  unfold fricTerm
  split_ifs with h
  · rw [Expr.eval_pow, pow_succ, (Nat.even_iff.mpr h).pow_abs]
  · have hk : k % 2 = 1 := by omega
    obtain ⟨j, rfl⟩ := Nat.odd_iff.mpr hk
    simp only [Expr.eval_smul, Expr.eval_sqrt, Expr.eval_pow, Real.sqrt_sq_eq_abs]
    rw [pow_succ, pow_succ, (even_two_mul j).pow_abs]; ring

theorem eval_fricLaw (ρ : Var → ℝ) (v : Expr) (p : SX) (base order : ℕ) :
    Expr.eval ρ (fricLaw v p base order) = Spec.friction (fun k => parV ρ p (base + k)) order (Expr.eval ρ v) := by
  simp only [fricLaw, eval_sumN, Expr.eval_smul, eval_fricTerm, Spec.friction, parV]
  exact Finset.sum_congr rfl fun k _ => mul_comm _ _

theorem eval_oddLaw (ρ : Var → ℝ) (v : Expr) (p : SX) (base order : ℕ) :
    Expr.eval ρ (oddLaw v p base order) = Spec.spring (fun k => parV ρ p (base + k)) order (Expr.eval ρ v) := by
  simp only [oddLaw, eval_sumN, Expr.eval_smul, Expr.eval_pow, Spec.spring, parV]
  exact Finset.sum_congr rfl fun k _ => mul_comm _ _

/-! ### The laws -/

namespace Spec

theorem friction_neg (c : ℕ → ℝ) (N : ℕ) (v : ℝ) : friction c N (-v) = -friction c N v := by
  simp [friction, Finset.sum_neg_distrib]

theorem friction_zero (c : ℕ → ℝ) (N : ℕ) : friction c N 0 = 0 := by simp [friction]

theorem friction_dissipative {c : ℕ → ℝ} {N : ℕ} (hc : ∀ k < N, 0 ≤ c k) (v : ℝ) : 0 ≤ v * friction c N v := by
  rw [friction, Finset.mul_sum]
  refine Finset.sum_nonneg fun k hk => ?_
  have : v * (c k * (|v| ^ k * v)) = c k * |v| ^ k * (v * v) := by ring
  rw [this]
  exact mul_nonneg (mul_nonneg (hc k (Finset.mem_range.mp hk)) (by positivity)) (mul_self_nonneg v)

theorem spring_neg (c : ℕ → ℝ) (N : ℕ) (v : ℝ) : spring c N (-v) = -spring c N v := by
  rw [spring, spring, ← Finset.sum_neg_distrib]
  refine Finset.sum_congr rfl fun k _ => ?_
  rw [Odd.neg_pow ⟨k, rfl⟩]; ring

theorem spring_mono {c : ℕ → ℝ} {N : ℕ} (hc : ∀ k < N, 0 ≤ c k) : Monotone (spring c N) := by
  intro a b hab
  refine Finset.sum_le_sum fun k hk => ?_
  exact mul_le_mul_of_nonneg_left ((Odd.strictMono_pow ⟨k, rfl⟩).monotone hab) (hc k (Finset.mem_range.mp hk))

theorem springEnergy_nonneg {c : ℕ → ℝ} {N : ℕ} (hc : ∀ k < N, 0 ≤ c k) (δ : ℝ) : 0 ≤ springEnergy c N δ := by
  refine Finset.sum_nonneg fun k hk => mul_nonneg (hc k (Finset.mem_range.mp hk)) (div_nonneg ?_ (by positivity))
  exact Even.pow_nonneg ⟨k + 1, by ring⟩ _

theorem hasDerivAt_springEnergy (c : ℕ → ℝ) (N : ℕ) (δ : ℝ) : HasDerivAt (springEnergy c N) (spring c N δ) δ := by
  unfold spring
  have : springEnergy c N = fun x => ∑ k ∈ Finset.range N, c k * (x ^ (2 * k + 2) / (2 * k + 2 : ℕ)) := rfl
  rw [this]
  refine HasDerivAt.fun_sum fun k _ => ?_
  have h := ((hasDerivAt_pow (2 * k + 2) δ).div_const ((2 * k + 2 : ℕ) : ℝ)).const_mul (c k)
  have hne : ((2 * k + 2 : ℕ) : ℝ) ≠ 0 := by positivity
  have e : c k * (((2 * k + 2 : ℕ) : ℝ) * δ ^ (2 * k + 2 - 1) / ((2 * k + 2 : ℕ) : ℝ)) = c k * δ ^ (2 * k + 1) := by
    rw [mul_div_cancel_left₀ _ hne]; rfl
  rw [e] at h
  exact h

end Spec

namespace Base

variable {B : Base}

/-- Well-formed friction parameters for the friction order `order`. -/
def FricWF (B : Base) (order : ℕ) : Prop := ParVec "par_Dl" (B.n * order) B.dl

/-- Well-formed elastic part: `m` elastic joints, orders of the three laws. -/
structure ElasticWF (B : Base) (m kord dord dmord : ℕ) : Prop where
  m_eq : m = (Spec.elasticJoints B.types).length
  x : B.x = SX.sym "x" m
  dx : B.dx = SX.sym "dx" m
  ddx : B.ddx = SX.sym "ddx" m
  parK : ParVec "par_K" (m * kord) B.parK
  parD : ParVec "par_D" (m * dord) B.parD
  parDm : ParVec "par_Dm" (m * dmord) B.parDm
  parMm : ParVec "par_Mm" m B.parMm

theorem ElasticWF.le {m kord dord dmord : ℕ} (h : B.ElasticWF m kord dord dmord) (hB : B.WF) : m ≤ B.n := by
  rw [h.m_eq, Spec.elasticJoints]
  refine (List.length_filter_le _ _).trans ?_
  rw [List.length_range, hB.len]

theorem eval_dl (hB : B.WF) {order : ℕ} (hF : B.FricWF order) (ρ : Var → ℝ) (v : Fin B.n → ℝ) (i : Fin B.n) :
    SX.vec (setV "dq" ρ v) (B.dlFun order) B.n i =
      Spec.friction (fun k => parV ρ B.dl (i * order + k)) order (v i) := by
  simp only [SX.vec_apply, dlFun, i.2, and_self, if_true, eval_fricLaw]
  congr 1
  · funext k; exact parV_setV hF (by decide) _ _ _
  · rw [hB.dq]; simp [SX.sym]

variable {m kord dord dmord : ℕ}

theorem eval_k (hB : B.WF) (hE : B.ElasticWF m kord dord dmord) (ρ : Var → ℝ) (q : Fin B.n → ℝ) (x : Fin m → ℝ) (e : Fin m) :
    SX.vec (setV "q" (setV "x" ρ x) q) (B.kFun m kord) m e =
      Spec.spring (fun k => parV ρ B.parK (e * kord + k)) kord (x e - q (Fin.castLE (hE.le hB) e)) := by
  simp only [SX.vec_apply, kFun, e.2, and_self, if_true, eval_oddLaw]
  congr 1
  · funext k; rw [parV_setV hE.parK (by decide), parV_setV hE.parK (by decide)]
  · have h1 : (e : ℕ) < B.n := lt_of_lt_of_le e.2 (hE.le hB)
    rw [hB.q, hE.x, Expr.eval_ssub]
    simp only [SX.sym, e.2, h1, and_self, if_true, Expr.eval_var]
    rw [setV_ne (v := ⟨"x", e⟩) (show ("x" : String) ≠ "q" by decide), setV_self, setV_self' h1]
    rfl

theorem eval_d (hB : B.WF) (hE : B.ElasticWF m kord dord dmord) (ρ : Var → ℝ) (dq : Fin B.n → ℝ) (dx : Fin m → ℝ) (e : Fin m) :
    SX.vec (setV "dq" (setV "dx" ρ dx) dq) (B.dFun m dord) m e =
      Spec.friction (fun k => parV ρ B.parD (e * dord + k)) dord (dx e - dq (Fin.castLE (hE.le hB) e)) := by
  simp only [SX.vec_apply, dFun, e.2, and_self, if_true, eval_fricLaw]
  congr 1
  · funext k; rw [parV_setV hE.parD (by decide), parV_setV hE.parD (by decide)]
  · have h1 : (e : ℕ) < B.n := lt_of_lt_of_le e.2 (hE.le hB)
    rw [hB.dq, hE.dx, Expr.eval_ssub]
    simp only [SX.sym, e.2, h1, and_self, if_true, Expr.eval_var]
    rw [setV_ne (v := ⟨"dx", e⟩) (show ("dx" : String) ≠ "dq" by decide), setV_self, setV_self' h1]
    rfl

theorem eval_dm (hE : B.ElasticWF m kord dord dmord) (ρ : Var → ℝ) (dx : Fin m → ℝ) (e : Fin m) :
    SX.vec (setV "dx" ρ dx) (B.dmFun m dmord) m e =
      Spec.friction (fun k => parV ρ B.parDm (e * dmord + k)) dmord (dx e) := by
  simp only [SX.vec_apply, dmFun, e.2, and_self, if_true, eval_fricLaw]
  congr 1
  · funext k; rw [parV_setV hE.parDm (by decide)]
  · rw [hE.dx]; simp [SX.sym]

/-- Index of the coefficient of order `k` of joint `i`. -/
theorem coef_lt {i n k order : ℕ} (hi : i < n) (hk : k < order) : i * order + k < n * order := by
  calc i * order + k < i * order + order := by omega
    _ = (i + 1) * order := by ring
    _ ≤ n * order := Nat.mul_le_mul_right _ hi

end Base

end

end Thunder
