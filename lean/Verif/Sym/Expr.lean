import Mathlib.Analysis.SpecialFunctions.Trigonometric.Deriv
import Mathlib.Analysis.Calculus.Deriv.Inv
import Mathlib.Analysis.Calculus.Deriv.Pow
import Mathlib.LinearAlgebra.Matrix.NonsingularInverse

/-!
# Scalar expressions (`casadi::SXElem`)

The fragment of CasADi's scalar expression graph used by the repository: constants, symbols made by `casadi::SX::sym(name, k)`
(one variable per entry, `Var.mk name i`), the arithmetic operations, `sin`, `cos`, `sqrt`, integer powers, and the entries of
`casadi::SX::inv`.  CasADi is not part of /repo; what is modelled is its documented meaning:

* `eval`  – value of an expression for given symbol values (real arithmetic, rounding not modelled);
* `fv`    – free symbols (`casadi::Function` refuses expressions with symbols that are not inputs);
* `D`     – symbolic derivative (`casadi::SX::jacobian` / `jtimes`, entry-wise);
* `sadd, smul, …` – node construction with CasADi's on-the-fly simplification of exact zeros.

`dir` is the directional derivative value and is *proved* to be the analytic derivative (`hasDerivAt_eval`), and `D` is proved to
compute it (`eval_D`).
-/

open scoped Classical

namespace Thunder

/-- One entry of a CasADi symbol vector `SX::sym(name, k)`. -/
structure Var where
  name : String
  idx : ℕ
deriving DecidableEq

/-- CasADi scalar expressions (fragment used by the repository). -/
inductive Expr : Type
  | const (c : ℝ)
  | var (v : Var)
  | add (a b : Expr)
  | sub (a b : Expr)
  | mul (a b : Expr)
  | div (a b : Expr)
  | neg (a : Expr)
  | sin (a : Expr)
  | cos (a : Expr)
  | sqrt (a : Expr)
  | pow (a : Expr) (n : ℕ)
  /-- entry `(i,j)` of `casadi::SX::inv` of an `n×n` matrix (used in kinematics.cpp:292). -/
  | inv (n : ℕ) (A : Fin n → Fin n → Expr) (i j : Fin n)

namespace Expr

noncomputable section

/-- Value of an expression under an assignment of the symbols. -/
def eval (ρ : Var → ℝ) : Expr → ℝ
  | const c => c
  | var v => ρ v
  | add a b => eval ρ a + eval ρ b
  | sub a b => eval ρ a - eval ρ b
  | mul a b => eval ρ a * eval ρ b
  | div a b => eval ρ a / eval ρ b
  | neg a => - eval ρ a
  | sin a => Real.sin (eval ρ a)
  | cos a => Real.cos (eval ρ a)
  | sqrt a => Real.sqrt (eval ρ a)
  | pow a n => eval ρ a ^ n
  | inv n A i j => (Matrix.of (fun k l : Fin n => eval ρ (A k l)))⁻¹ i j

/-- Free symbols of an expression. -/
def fv : Expr → Set Var
  | const _ => ∅
  | var v => {v}
  | add a b => fv a ∪ fv b
  | sub a b => fv a ∪ fv b
  | mul a b => fv a ∪ fv b
  | div a b => fv a ∪ fv b
  | neg a => fv a
  | sin a => fv a
  | cos a => fv a
  | sqrt a => fv a
  | pow a _ => fv a
  | inv n A _ _ => {v | ∃ k l : Fin n, v ∈ fv (A k l)}

/-- The value only depends on the free symbols. -/
theorem eval_congr {ρ σ : Var → ℝ} : ∀ {e : Expr}, (∀ v ∈ fv e, ρ v = σ v) → eval ρ e = eval σ e
  | const _, _ => rfl
  | var v, h => h v rfl
  | add a b, h => by
      simp only [eval]; rw [eval_congr (e := a) fun v hv => h v (.inl hv), eval_congr (e := b) fun v hv => h v (.inr hv)]
  | sub a b, h => by
      simp only [eval]; rw [eval_congr (e := a) fun v hv => h v (.inl hv), eval_congr (e := b) fun v hv => h v (.inr hv)]
  | mul a b, h => by
      simp only [eval]; rw [eval_congr (e := a) fun v hv => h v (.inl hv), eval_congr (e := b) fun v hv => h v (.inr hv)]
  | div a b, h => by
      simp only [eval]; rw [eval_congr (e := a) fun v hv => h v (.inl hv), eval_congr (e := b) fun v hv => h v (.inr hv)]
  | neg a, h => by simp only [eval]; rw [eval_congr (e := a) h]
  | sin a, h => by simp only [eval]; rw [eval_congr (e := a) h]
  | cos a, h => by simp only [eval]; rw [eval_congr (e := a) h]
  | sqrt a, h => by simp only [eval]; rw [eval_congr (e := a) h]
  | pow a _, h => by simp only [eval]; rw [eval_congr (e := a) h]
  | inv n A i j, h => by
      simp only [eval]
      have : (fun k l : Fin n => eval ρ (A k l)) = fun k l => eval σ (A k l) := by
        funext k l
        exact eval_congr (e := A k l) fun v hv => h v ⟨k, l, hv⟩
      rw [this]

/-! ### Node construction with CasADi's simplification of exact zeros -/

/-- `a + b`, with `0 + b = b` and `a + 0 = a` (CasADi on-the-fly simplification). -/
def sadd (a b : Expr) : Expr := if a = const 0 then b else if b = const 0 then a else add a b
/-- `a - b`, with `a - 0 = a` and `0 - b = -b`. -/
def ssub (a b : Expr) : Expr := if b = const 0 then a else if a = const 0 then neg b else sub a b
/-- `a * b`, with `0 * b = a * 0 = 0`. -/
def smul (a b : Expr) : Expr := if a = const 0 ∨ b = const 0 then const 0 else mul a b
/-- `-a`, with `-0 = 0`. -/
def sneg (a : Expr) : Expr := if a = const 0 then const 0 else neg a
/-- `a / b`, with `0 / b = 0`. -/
def sdiv (a b : Expr) : Expr := if a = const 0 then const 0 else div a b

@[simp] theorem eval_sadd (ρ) (a b : Expr) : eval ρ (sadd a b) = eval ρ a + eval ρ b := by
  unfold sadd; split_ifs with h1 h2 <;> simp_all [eval]
@[simp] theorem eval_ssub (ρ) (a b : Expr) : eval ρ (ssub a b) = eval ρ a - eval ρ b := by
  unfold ssub; split_ifs with h1 h2 <;> simp_all [eval]
@[simp] theorem eval_smul (ρ) (a b : Expr) : eval ρ (smul a b) = eval ρ a * eval ρ b := by
  unfold smul
  split_ifs with h1
  · rcases h1 with h | h <;> simp [h, eval]
  · simp [eval]
@[simp] theorem eval_sneg (ρ) (a : Expr) : eval ρ (sneg a) = - eval ρ a := by
  unfold sneg; split_ifs with h1 <;> simp_all [eval]
@[simp] theorem eval_sdiv (ρ) (a b : Expr) : eval ρ (sdiv a b) = eval ρ a / eval ρ b := by
  unfold sdiv; split_ifs with h1 <;> simp_all [eval]
@[simp] theorem eval_const (ρ) (c : ℝ) : eval ρ (const c) = c := rfl
@[simp] theorem eval_var (ρ) (v : Var) : eval ρ (var v) = ρ v := rfl
@[simp] theorem eval_sin (ρ) (a : Expr) : eval ρ (sin a) = Real.sin (eval ρ a) := rfl
@[simp] theorem eval_cos (ρ) (a : Expr) : eval ρ (cos a) = Real.cos (eval ρ a) := rfl
@[simp] theorem eval_sqrt (ρ) (a : Expr) : eval ρ (sqrt a) = Real.sqrt (eval ρ a) := rfl
@[simp] theorem eval_pow (ρ) (a : Expr) (n : ℕ) : eval ρ (pow a n) = eval ρ a ^ n := rfl
@[simp] theorem eval_neg (ρ) (a : Expr) : eval ρ (neg a) = - eval ρ a := rfl

@[simp] theorem fv_const (c : ℝ) : fv (const c) = ∅ := rfl
@[simp] theorem fv_var (v : Var) : fv (var v) = {v} := rfl

theorem fv_sadd (a b : Expr) : fv (sadd a b) ⊆ fv a ∪ fv b := by
  unfold sadd; split_ifs <;> simp [fv]
theorem fv_ssub (a b : Expr) : fv (ssub a b) ⊆ fv a ∪ fv b := by
  unfold ssub; split_ifs <;> simp [fv]
theorem fv_smul (a b : Expr) : fv (smul a b) ⊆ fv a ∪ fv b := by
  unfold smul; split_ifs <;> simp [fv]
theorem fv_sneg (a : Expr) : fv (sneg a) ⊆ fv a := by
  unfold sneg; split_ifs <;> simp [fv]
theorem fv_sdiv (a b : Expr) : fv (sdiv a b) ⊆ fv a ∪ fv b := by
  unfold sdiv; split_ifs <;> simp [fv]

@[simp] theorem sadd_zero_left (b : Expr) : sadd (const 0) b = b := by simp [sadd]
@[simp] theorem sadd_zero_right (a : Expr) : sadd a (const 0) = a := by
  unfold sadd; split_ifs with h <;> simp_all
@[simp] theorem smul_zero_left (b : Expr) : smul (const 0) b = const 0 := by simp [smul]
@[simp] theorem smul_zero_right (a : Expr) : smul a (const 0) = const 0 := by simp [smul]
@[simp] theorem sneg_zero : sneg (const 0) = const 0 := by simp [sneg]
@[simp] theorem sdiv_zero_left (b : Expr) : sdiv (const 0) b = const 0 := by simp [sdiv]
@[simp] theorem ssub_zero_right (a : Expr) : ssub a (const 0) = a := by simp [ssub]

/-- Sum of a list of expressions, `((0 + e₀) + e₁) + …` up to association. -/
def sumE : List Expr → Expr
  | [] => const 0
  | e :: l => sadd e (sumE l)

@[simp] theorem eval_sumE (ρ) (l : List Expr) : eval ρ (sumE l) = (l.map (eval ρ)).sum := by
  induction l with
  | nil => simp [sumE]
  | cons e l ih => simp [sumE, ih]

theorem fv_sumE (l : List Expr) : fv (sumE l) ⊆ {v | ∃ e ∈ l, v ∈ fv e} := by
  induction l with
  | nil => simp [sumE]
  | cons e l ih =>
      intro v hv
      rcases fv_sadd _ _ hv with h | h
      · exact ⟨e, by simp, h⟩
      · obtain ⟨e', he', h'⟩ := ih h
        exact ⟨e', by simp [he'], h'⟩

theorem sumE_eq_zero (l : List Expr) (h : ∀ e ∈ l, e = const 0) : sumE l = const 0 := by
  induction l with
  | nil => rfl
  | cons e l ih =>
      rw [sumE, h e (by simp), sadd_zero_left]
      exact ih fun e he => h e (by simp [he])

/-! ### Symbolic derivative -/

/-- Symbolic derivative with respect to one symbol (entry of `casadi::SX::jacobian`). -/
def D (v : Var) : Expr → Expr
  | const _ => const 0
  | var w => if w = v then const 1 else const 0
  | add a b => sadd (D v a) (D v b)
  | sub a b => ssub (D v a) (D v b)
  | mul a b => sadd (smul (D v a) b) (smul a (D v b))
  | div a b => sdiv (ssub (smul (D v a) b) (smul a (D v b))) (pow b 2)
  | neg a => sneg (D v a)
  | sin a => smul (cos a) (D v a)
  | cos a => sneg (smul (sin a) (D v a))
  | sqrt a => sdiv (D v a) (smul (const 2) (sqrt a))
  | pow a n => smul (smul (const n) (pow a (n - 1))) (D v a)
  | inv n A i j =>
      sneg (sumE ((List.finRange n).map fun k => sumE ((List.finRange n).map fun l =>
        smul (smul (inv n A i k) (D v (A k l))) (inv n A l j))))

/-- Directional derivative value: derivative of `eval` when the symbols move with velocity `δ`. -/
def dir (ρ δ : Var → ℝ) : Expr → ℝ
  | const _ => 0
  | var w => δ w
  | add a b => dir ρ δ a + dir ρ δ b
  | sub a b => dir ρ δ a - dir ρ δ b
  | mul a b => dir ρ δ a * eval ρ b + eval ρ a * dir ρ δ b
  | div a b => (dir ρ δ a * eval ρ b - eval ρ a * dir ρ δ b) / eval ρ b ^ 2
  | neg a => - dir ρ δ a
  | sin a => Real.cos (eval ρ a) * dir ρ δ a
  | cos a => - (Real.sin (eval ρ a) * dir ρ δ a)
  | sqrt a => dir ρ δ a / (2 * Real.sqrt (eval ρ a))
  | pow a n => n * eval ρ a ^ (n - 1) * dir ρ δ a
  | inv n A i j =>
      - ∑ k, ∑ l, (Matrix.of (fun k l : Fin n => eval ρ (A k l)))⁻¹ i k * dir ρ δ (A k l) *
          (Matrix.of (fun k l : Fin n => eval ρ (A k l)))⁻¹ l j

@[simp] theorem dir_const (ρ δ : Var → ℝ) (c : ℝ) : dir ρ δ (const c) = 0 := rfl
@[simp] theorem dir_var (ρ δ : Var → ℝ) (v : Var) : dir ρ δ (var v) = δ v := rfl
@[simp] theorem dir_sadd (ρ δ : Var → ℝ) (a b : Expr) : dir ρ δ (sadd a b) = dir ρ δ a + dir ρ δ b := by
  unfold sadd; split_ifs with h1 h2 <;> simp_all [dir]
@[simp] theorem dir_ssub (ρ δ : Var → ℝ) (a b : Expr) : dir ρ δ (ssub a b) = dir ρ δ a - dir ρ δ b := by
  unfold ssub; split_ifs with h1 h2 <;> simp_all [dir]
@[simp] theorem dir_smul' (ρ δ : Var → ℝ) (a b : Expr) :
    dir ρ δ (smul a b) = dir ρ δ a * eval ρ b + eval ρ a * dir ρ δ b := by
  unfold smul
  split_ifs with h1
  · rcases h1 with h | h <;> simp [h, dir]
  · simp [dir]
@[simp] theorem dir_sneg (ρ δ : Var → ℝ) (a : Expr) : dir ρ δ (sneg a) = - dir ρ δ a := by
  unfold sneg; split_ifs with h1 <;> simp_all [dir]
@[simp] theorem dir_sdiv (ρ δ : Var → ℝ) (a b : Expr) :
    dir ρ δ (sdiv a b) = (dir ρ δ a * eval ρ b - eval ρ a * dir ρ δ b) / eval ρ b ^ 2 := by
  unfold sdiv; split_ifs with h1 <;> simp_all [dir]
@[simp] theorem dir_sumE (ρ δ : Var → ℝ) (l : List Expr) : dir ρ δ (sumE l) = (l.map (dir ρ δ)).sum := by
  induction l with
  | nil => simp [sumE]
  | cons e l ih => simp [sumE, ih]

/-- Velocity that moves only symbol `v`, at unit speed. -/
def single (v : Var) : Var → ℝ := fun w => if w = v then 1 else 0

@[simp] theorem single_same (v : Var) : single v v = 1 := by simp [single]
theorem single_ne {v w : Var} (h : w ≠ v) : single v w = 0 := by simp [single, h]

/-- The symbolic derivative computes the directional derivative along its symbol. -/
theorem eval_D (ρ : Var → ℝ) (v : Var) : ∀ e : Expr, eval ρ (D v e) = dir ρ (single v) e
  | const _ => rfl
  | var w => by simp only [D, dir, single]; split_ifs <;> rfl
  | add a b => by simp [D, dir, eval_D ρ v a, eval_D ρ v b]
  | sub a b => by simp [D, dir, eval_D ρ v a, eval_D ρ v b]
  | mul a b => by simp [D, dir, eval_D ρ v a, eval_D ρ v b]
  | div a b => by simp [D, dir, eval_D ρ v a, eval_D ρ v b]
  | neg a => by simp [D, dir, eval_D ρ v a]
  | sin a => by simp [D, dir, eval_D ρ v a]
  | cos a => by simp [D, dir, eval_D ρ v a]
  | sqrt a => by simp [D, dir, eval_D ρ v a]
  | pow a n => by simp [D, dir, eval_D ρ v a]
  | inv n A i j => by
      have hA : ∀ k l, eval ρ (D v (A k l)) = dir ρ (single v) (A k l) := fun k l => eval_D ρ v (A k l)
      simp only [D, dir, eval_sneg, eval_sumE, List.map_map, Function.comp_def, eval_smul, hA, eval]
      congr 1

/-- Directions only matter on the free symbols. -/
theorem dir_congr {ρ δ ε : Var → ℝ} : ∀ {e : Expr}, (∀ v ∈ fv e, δ v = ε v) → dir ρ δ e = dir ρ ε e
  | const _, _ => rfl
  | var v, h => h v rfl
  | add a b, h => by
      simp only [dir]; rw [dir_congr (e := a) fun v hv => h v (.inl hv), dir_congr (e := b) fun v hv => h v (.inr hv)]
  | sub a b, h => by
      simp only [dir]; rw [dir_congr (e := a) fun v hv => h v (.inl hv), dir_congr (e := b) fun v hv => h v (.inr hv)]
  | mul a b, h => by
      simp only [dir]; rw [dir_congr (e := a) fun v hv => h v (.inl hv), dir_congr (e := b) fun v hv => h v (.inr hv)]
  | div a b, h => by
      simp only [dir]; rw [dir_congr (e := a) fun v hv => h v (.inl hv), dir_congr (e := b) fun v hv => h v (.inr hv)]
  | neg a, h => by simp only [dir]; rw [dir_congr (e := a) h]
  | sin a, h => by simp only [dir]; rw [dir_congr (e := a) h]
  | cos a, h => by simp only [dir]; rw [dir_congr (e := a) h]
  | sqrt a, h => by simp only [dir]; rw [dir_congr (e := a) h]
  | pow a _, h => by simp only [dir]; rw [dir_congr (e := a) h]
  | inv n A i j, h => by
      have hA : ∀ k l, dir ρ δ (A k l) = dir ρ ε (A k l) := fun k l => dir_congr (e := A k l) fun v hv => h v ⟨k, l, hv⟩
      simp only [dir, hA]

@[simp] theorem dir_zero (ρ : Var → ℝ) : ∀ e : Expr, dir ρ (fun _ => 0) e = 0
  | const _ => rfl
  | var _ => rfl
  | add a b => by simp [dir, dir_zero ρ a, dir_zero ρ b]
  | sub a b => by simp [dir, dir_zero ρ a, dir_zero ρ b]
  | mul a b => by simp [dir, dir_zero ρ a, dir_zero ρ b]
  | div a b => by simp [dir, dir_zero ρ a, dir_zero ρ b]
  | neg a => by simp [dir, dir_zero ρ a]
  | sin a => by simp [dir, dir_zero ρ a]
  | cos a => by simp [dir, dir_zero ρ a]
  | sqrt a => by simp [dir, dir_zero ρ a]
  | pow a _ => by simp [dir, dir_zero ρ a]
  | inv n A i j => by
      have hA : ∀ k l, dir ρ (fun _ => 0) (A k l) = 0 := fun k l => dir_zero ρ (A k l)
      simp [dir, hA]

/-- An expression without moving symbols has zero derivative. -/
theorem dir_eq_zero {ρ δ : Var → ℝ} {e : Expr} (h : ∀ v ∈ fv e, δ v = 0) : dir ρ δ e = 0 := by
  rw [dir_congr (ε := fun _ => 0) h, dir_zero]

/-- The directional derivative is additive in the direction. -/
theorem dir_add (ρ δ ε : Var → ℝ) : ∀ e : Expr, dir ρ (fun v => δ v + ε v) e = dir ρ δ e + dir ρ ε e
  | const _ => by simp [dir]
  | var _ => rfl
  | add a b => by simp only [dir]; rw [dir_add ρ δ ε a, dir_add ρ δ ε b]; ring
  | sub a b => by simp only [dir]; rw [dir_add ρ δ ε a, dir_add ρ δ ε b]; ring
  | mul a b => by simp only [dir]; rw [dir_add ρ δ ε a, dir_add ρ δ ε b]; ring
  | div a b => by simp only [dir]; rw [dir_add ρ δ ε a, dir_add ρ δ ε b]; ring
  | neg a => by simp only [dir]; rw [dir_add ρ δ ε a]; ring
  | sin a => by simp only [dir]; rw [dir_add ρ δ ε a]; ring
  | cos a => by simp only [dir]; rw [dir_add ρ δ ε a]; ring
  | sqrt a => by simp only [dir]; rw [dir_add ρ δ ε a]; ring
  | pow a _ => by simp only [dir]; rw [dir_add ρ δ ε a]; ring
  | inv n A i j => by
      have hA : ∀ k l, dir ρ (fun v => δ v + ε v) (A k l) = dir ρ δ (A k l) + dir ρ ε (A k l) :=
        fun k l => dir_add ρ δ ε (A k l)
      simp only [dir, hA, mul_add, add_mul, Finset.sum_add_distrib]; ring

/-- The directional derivative is homogeneous in the direction. -/
theorem dir_smul (ρ δ : Var → ℝ) (c : ℝ) : ∀ e : Expr, dir ρ (fun v => c * δ v) e = c * dir ρ δ e
  | const _ => by simp [dir]
  | var _ => rfl
  | add a b => by simp only [dir]; rw [dir_smul ρ δ c a, dir_smul ρ δ c b]; ring
  | sub a b => by simp only [dir]; rw [dir_smul ρ δ c a, dir_smul ρ δ c b]; ring
  | mul a b => by simp only [dir]; rw [dir_smul ρ δ c a, dir_smul ρ δ c b]; ring
  | div a b => by simp only [dir]; rw [dir_smul ρ δ c a, dir_smul ρ δ c b]; ring
  | neg a => by simp only [dir]; rw [dir_smul ρ δ c a]; ring
  | sin a => by simp only [dir]; rw [dir_smul ρ δ c a]; ring
  | cos a => by simp only [dir]; rw [dir_smul ρ δ c a]; ring
  | sqrt a => by simp only [dir]; rw [dir_smul ρ δ c a]; ring
  | pow a _ => by simp only [dir]; rw [dir_smul ρ δ c a]; ring
  | inv n A i j => by
      have hA : ∀ k l, dir ρ (fun v => c * δ v) (A k l) = c * dir ρ δ (A k l) := fun k l => dir_smul ρ δ c (A k l)
      simp only [dir, hA, mul_neg, Finset.mul_sum]
      congr 1
      refine Finset.sum_congr rfl fun k _ => Finset.sum_congr rfl fun l _ => by ring

/-- The directional derivative as a combination of partial derivatives over a finite set of symbols. -/
theorem dir_sum (ρ : Var → ℝ) {ι : Type*} (s : Finset ι) (f : ι → Var → ℝ) (e : Expr) :
    dir ρ (fun v => ∑ i ∈ s, f i v) e = ∑ i ∈ s, dir ρ (f i) e := by
  induction s using Finset.induction_on with
  | empty => simp
  | insert a s ha ih => simp only [Finset.sum_insert ha]; rw [dir_add ρ (f a), ih]

/-- `D` vanishes structurally on expressions that do not contain the symbol. -/
theorem D_eq_zero {v : Var} : ∀ {e : Expr}, v ∉ fv e → D v e = const 0
  | const _, _ => rfl
  | var w, h => by
      have : w ≠ v := fun h' => h (by simp [fv, h'])
      simp [D, this]
  | add a b, h => by
      simp only [fv, Set.mem_union, not_or] at h
      simp [D, D_eq_zero h.1, D_eq_zero h.2]
  | sub a b, h => by
      simp only [fv, Set.mem_union, not_or] at h
      simp [D, D_eq_zero h.1, D_eq_zero h.2]
  | mul a b, h => by
      simp only [fv, Set.mem_union, not_or] at h
      simp [D, D_eq_zero h.1, D_eq_zero h.2]
  | div a b, h => by
      simp only [fv, Set.mem_union, not_or] at h
      simp [D, D_eq_zero h.1, D_eq_zero h.2]
  | neg a, h => by simp [D, D_eq_zero (e := a) h]
  | sin a, h => by simp [D, D_eq_zero (e := a) h]
  | cos a, h => by simp [D, D_eq_zero (e := a) h]
  | sqrt a, h => by simp [D, D_eq_zero (e := a) h]
  | pow a _, h => by simp [D, D_eq_zero (e := a) h]
  | inv n A i j, h => by
      have hA : ∀ k l, D v (A k l) = const 0 := fun k l => D_eq_zero (e := A k l) fun hv => h ⟨k, l, hv⟩
      simp only [D, hA, smul_zero_right, smul_zero_left]
      rw [sumE_eq_zero, sneg_zero]
      intro e he
      simp only [List.mem_map] at he
      obtain ⟨k, _, rfl⟩ := he
      apply sumE_eq_zero
      intro e he
      simp only [List.mem_map] at he
      obtain ⟨l, _, rfl⟩ := he
      rfl

/-- Differentiation introduces no new symbols. -/
theorem fv_D (v : Var) : ∀ e : Expr, fv (D v e) ⊆ fv e
  | const _ => by simp [D]
  | var w => by simp only [D]; split_ifs <;> simp
  | add a b => by
      refine (fv_sadd _ _).trans (Set.union_subset_union (fv_D v a) (fv_D v b))
  | sub a b => by
      refine (fv_ssub _ _).trans (Set.union_subset_union (fv_D v a) (fv_D v b))
  | mul a b => by
      refine (fv_sadd _ _).trans (Set.union_subset ((fv_smul _ _).trans ?_) ((fv_smul _ _).trans ?_))
      · exact Set.union_subset_union (fv_D v a) (subset_refl _)
      · exact Set.union_subset_union (subset_refl _) (fv_D v b)
  | div a b => by
      refine (fv_sdiv _ _).trans (Set.union_subset ((fv_ssub _ _).trans (Set.union_subset ?_ ?_)) ?_)
      · exact (fv_smul _ _).trans (Set.union_subset_union (fv_D v a) (subset_refl _))
      · exact (fv_smul _ _).trans (Set.union_subset_union (subset_refl _) (fv_D v b))
      · exact Set.subset_union_right
  | neg a => (fv_sneg _).trans (fv_D v a)
  | sin a => (fv_smul _ _).trans (Set.union_subset (subset_refl _) (fv_D v a))
  | cos a => (fv_sneg _).trans ((fv_smul _ _).trans (Set.union_subset (subset_refl _) (fv_D v a)))
  | sqrt a => (fv_sdiv _ _).trans (Set.union_subset (fv_D v a)
      ((fv_smul _ _).trans (Set.union_subset (by simp) (subset_refl _))))
  | pow a n => (fv_smul _ _).trans (Set.union_subset
      ((fv_smul _ _).trans (Set.union_subset (by simp) (subset_refl _))) (fv_D v a))
  | inv n A i j => by
      refine (fv_sneg _).trans ((fv_sumE _).trans ?_)
      rintro w ⟨e, he, hw⟩
      simp only [List.mem_map] at he
      obtain ⟨k, _, rfl⟩ := he
      obtain ⟨e, he, hw⟩ := fv_sumE _ hw
      simp only [List.mem_map] at he
      obtain ⟨l, _, rfl⟩ := he
      rcases fv_smul _ _ hw with h | h
      · rcases fv_smul _ _ h with h | h
        · exact h
        · exact ⟨k, l, fv_D v (A k l) h⟩
      · exact h

/-! ### The symbolic derivative is the analytic derivative -/

/-- Expressions whose dependence on the symbols in `S` goes through smooth operations only: quotients by, square roots of and
matrix inverses of expressions without symbols of `S` are allowed (e.g. the `/2` of `stdCmatrix`, or friction laws seen as
functions of their coefficients). -/
def Smooth (S : Set Var) : Expr → Prop
  | const _ => True
  | var _ => True
  | add a b => Smooth S a ∧ Smooth S b
  | sub a b => Smooth S a ∧ Smooth S b
  | mul a b => Smooth S a ∧ Smooth S b
  | div a b => Smooth S a ∧ Disjoint (fv b) S
  | neg a => Smooth S a
  | sin a => Smooth S a
  | cos a => Smooth S a
  | sqrt a => Disjoint (fv a) S
  | pow a _ => Smooth S a
  | inv n A _ _ => ∀ k l : Fin n, Disjoint (fv (A k l)) S

theorem eval_frozen {S : Set Var} {γ : ℝ → Var → ℝ} {t₀ : ℝ} (hfix : ∀ v ∉ S, ∀ t, γ t v = γ t₀ v) {e : Expr}
    (h : Disjoint (fv e) S) (t : ℝ) : eval (γ t) e = eval (γ t₀) e :=
  eval_congr fun v hv => hfix v (Set.disjoint_left.mp h hv) t

/-- Main fact: if the symbols in `S` move differentiably with velocity `δ` and the others are frozen, the value of a smooth
expression is differentiable and its derivative is `dir`. -/
theorem hasDerivAt_eval {S : Set Var} {γ : ℝ → Var → ℝ} {δ : Var → ℝ} {t₀ : ℝ}
    (hmove : ∀ v ∈ S, HasDerivAt (fun t => γ t v) (δ v) t₀) (hfix : ∀ v ∉ S, ∀ t, γ t v = γ t₀ v)
    (hzero : ∀ v ∉ S, δ v = 0) :
    ∀ {e : Expr}, Smooth S e → HasDerivAt (fun t => eval (γ t) e) (dir (γ t₀) δ e) t₀
  | const c, _ => hasDerivAt_const t₀ c
  | var v, _ => by
      by_cases hv : v ∈ S
      · exact hmove v hv
      · simp only [eval, dir, hzero v hv, hfix v hv]
        exact hasDerivAt_const t₀ _
  | add a b, h => (hasDerivAt_eval hmove hfix hzero h.1).add (hasDerivAt_eval hmove hfix hzero h.2)
  | sub a b, h => (hasDerivAt_eval hmove hfix hzero h.1).sub (hasDerivAt_eval hmove hfix hzero h.2)
  | mul a b, h => (hasDerivAt_eval hmove hfix hzero h.1).mul (hasDerivAt_eval hmove hfix hzero h.2)
  | div a b, h => by
      have hb := eval_frozen (γ := γ) (t₀ := t₀) hfix h.2
      have hdb : dir (γ t₀) δ b = 0 := dir_eq_zero fun v hv => hzero v (Set.disjoint_left.mp h.2 hv)
      simp only [eval, dir, hb, hdb, mul_zero, sub_zero]
      have := (hasDerivAt_eval hmove hfix hzero h.1).div_const (eval (γ t₀) b)
      have e : dir (γ t₀) δ a * eval (γ t₀) b / eval (γ t₀) b ^ 2 = dir (γ t₀) δ a / eval (γ t₀) b := by
        by_cases h0 : eval (γ t₀) b = 0
        · simp [h0]
        · field_simp
      rw [e]; exact this
  | neg a, h => (hasDerivAt_eval (e := a) hmove hfix hzero h).neg
  | sin a, h => (hasDerivAt_eval (e := a) hmove hfix hzero h).sin
  | cos a, h => by
      have := (hasDerivAt_eval (e := a) hmove hfix hzero h).cos
      simp only [eval, dir]
      rw [← neg_mul]; exact this
  | sqrt a, h => by
      have ha := eval_frozen (γ := γ) (t₀ := t₀) hfix (e := a) h
      have hda : dir (γ t₀) δ a = 0 := dir_eq_zero fun v hv => hzero v (Set.disjoint_left.mp h hv)
      simp only [eval, dir, ha, hda, zero_div]
      exact hasDerivAt_const t₀ _
  | pow a n, h => by
      have := (hasDerivAt_eval (e := a) hmove hfix hzero h).pow n
      exact this
  | inv n A i j, h => by
      have hA : ∀ k l, ∀ t, eval (γ t) (A k l) = eval (γ t₀) (A k l) := fun k l => eval_frozen hfix (h k l)
      have hdA : ∀ k l, dir (γ t₀) δ (A k l) = 0 :=
        fun k l => dir_eq_zero fun v hv => hzero v (Set.disjoint_left.mp (h k l) hv)
      simp only [eval, dir, hA, hdA, mul_zero, zero_mul, Finset.sum_const_zero, neg_zero]
      exact hasDerivAt_const t₀ _

theorem Smooth.sadd {S} {a b : Expr} (ha : Smooth S a) (hb : Smooth S b) : Smooth S (sadd a b) := by
  unfold Expr.sadd; split_ifs <;> first | assumption | exact ⟨ha, hb⟩
theorem Smooth.ssub {S} {a b : Expr} (ha : Smooth S a) (hb : Smooth S b) : Smooth S (ssub a b) := by
  unfold Expr.ssub; split_ifs <;> first | assumption | exact ⟨ha, hb⟩
theorem Smooth.smul {S} {a b : Expr} (ha : Smooth S a) (hb : Smooth S b) : Smooth S (smul a b) := by
  unfold Expr.smul; split_ifs <;> trivial
theorem Smooth.sneg {S} {a : Expr} (ha : Smooth S a) : Smooth S (sneg a) := by
  unfold Expr.sneg; split_ifs <;> trivial
theorem Smooth.sdiv {S} {a b : Expr} (ha : Smooth S a) (hb : Disjoint (fv b) S) : Smooth S (sdiv a b) := by
  unfold Expr.sdiv; split_ifs <;> trivial
theorem Smooth.sumE {S} {l : List Expr} (h : ∀ e ∈ l, Smooth S e) : Smooth S (sumE l) := by
  induction l with
  | nil => trivial
  | cons e l ih => exact (h e (by simp)).sadd (ih fun e he => h e (by simp [he]))

/-- Expressions without symbols of `S` are smooth in `S`. -/
theorem Smooth.of_disjoint {S} : ∀ {e : Expr}, Disjoint (fv e) S → Smooth S e
  | const _, _ => trivial
  | var _, _ => trivial
  | add a b, h => by
      simp only [fv, Set.disjoint_union_left] at h; exact ⟨of_disjoint h.1, of_disjoint h.2⟩
  | sub a b, h => by
      simp only [fv, Set.disjoint_union_left] at h; exact ⟨of_disjoint h.1, of_disjoint h.2⟩
  | mul a b, h => by
      simp only [fv, Set.disjoint_union_left] at h; exact ⟨of_disjoint h.1, of_disjoint h.2⟩
  | div a b, h => by
      simp only [fv, Set.disjoint_union_left] at h; exact ⟨of_disjoint h.1, h.2⟩
  | neg a, h => of_disjoint (e := a) h
  | sin a, h => of_disjoint (e := a) h
  | cos a, h => of_disjoint (e := a) h
  | sqrt a, h => h
  | pow a _, h => of_disjoint (e := a) h
  | inv n A i j, h => fun k l => Set.disjoint_left.mpr fun v hv hS => Set.disjoint_left.mp h ⟨k, l, hv⟩ hS

/-- The symbolic derivative of a smooth expression is smooth. -/
theorem Smooth.D {S} (v : Var) : ∀ {e : Expr}, Smooth S e → Smooth S (D v e)
  | const _, _ => trivial
  | var w, _ => by simp only [Expr.D]; split_ifs <;> trivial
  | add a b, h => (Smooth.D v h.1).sadd (Smooth.D v h.2)
  | sub a b, h => (Smooth.D v h.1).ssub (Smooth.D v h.2)
  | mul a b, h => ((Smooth.D v h.1).smul h.2).sadd (h.1.smul (Smooth.D v h.2))
  | div a b, h =>
      (((Smooth.D v h.1).smul (of_disjoint h.2)).ssub (h.1.smul (Smooth.D v (of_disjoint h.2)))).sdiv h.2
  | neg a, h => (Smooth.D (e := a) v h).sneg
  | sin a, h => Smooth.smul (a := cos a) h (Smooth.D (e := a) v h)
  | cos a, h => (Smooth.smul (a := sin a) h (Smooth.D (e := a) v h)).sneg
  | sqrt a, h => by
      have h' : Disjoint (fv a) S := h
      refine (Smooth.D v (of_disjoint h')).sdiv ?_
      exact Disjoint.mono_left ((fv_smul _ _).trans (by simp [fv])) h'
  | pow a n, h => (Smooth.smul (Smooth.smul (a := const n) (b := pow a (n - 1)) trivial h) (Smooth.D (e := a) v h))
  | inv n A i j, h => by
      apply of_disjoint
      refine Disjoint.mono_left (fv_D v _) ?_
      rw [Set.disjoint_left]
      rintro w ⟨k, l, hw⟩ hS
      exact Set.disjoint_left.mp (h k l) hw hS

/-- Partial derivative: value of `D v e` is the derivative of the value when only symbol `v` varies. -/
theorem hasDerivAt_D {ρ : Var → ℝ} {v : Var} {e : Expr} (h : Smooth {v} e) :
    HasDerivAt (fun t => eval (Function.update ρ v t) e) (eval ρ (D v e)) (ρ v) := by
  have := hasDerivAt_eval (S := {v}) (γ := fun t => Function.update ρ v t) (δ := single v) (t₀ := ρ v)
    (by
      intro w hw
      obtain rfl : w = v := hw
      simp only [Function.update_self, single_same]
      exact hasDerivAt_id (ρ w))
    (by
      intro w hw t
      have : w ≠ v := hw
      simp [Function.update_of_ne this])
    (by intro w hw; exact single_ne hw) h
  simpa [eval_D] using this

end

end Expr

end Thunder
