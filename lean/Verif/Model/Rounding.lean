import Verif.Model.Generated
import Mathlib.Data.Int.Log
import Mathlib.Algebra.Order.Round

/-!
# Evaluation with rounding errors

The functions `call` of CasADi (src/robot.cpp:376) and the C code behind the getters of the generated class (src/utils.cpp:204-229) evaluate an
expression one operation after the other in floating-point arithmetic.  Here the evaluation is done by an arbitrary machine all of whose operations have a
relative error of at most `u` as long as the result is between `u` and `1 / u`; smaller results have an error of at most `u ^ 2` and larger ones may be
anything, so that underflow and overflow are included.  `get` and the getters are those of `Verif.Model.Robot` and `Verif.Model.Generated` with the values computed by the
machine.  Paths are relative to /repo/src/thunder.

Simplifications: the infinite values and NaN after an overflow are numbers of which nothing is known; the order of the additions in a sum and the
form of the derivatives are those of the expressions of the model; `pow` with an integer exponent, `sin`, `cos` and `sqrt` count as one operation;
the algorithm behind `inv` is not modelled, it is assumed to be backward stable for well-conditioned matrices (`SolvesNear`).
-/

open scoped Classical

namespace Thunder

noncomputable section

/-- `v` is the result of an operation whose exact value is `z`: the relative error is at most `u` for values between `u` and `1 / u`, the absolute error at
most `u ^ 2` for smaller ones, where underflow may happen, and nothing is known for larger ones, where overflow may happen. -/
def Near (u z v : ℝ) : Prop := u * |z| ≤ 1 → |v - z| ≤ u * max |z| u

/-- `X` is column `j` of the inverse of `x` as computed: it solves a system whose matrix differs from `x` by at most `u B`, when the entries of `x` and of
its inverse are at most `B` and `u` is small compared with `B`.  Otherwise nothing is known. -/
def SolvesNear (u : ℝ) {n : ℕ} (x : Matrix (Fin n) (Fin n) ℝ) (j : Fin n) (X : Fin n → ℝ) : Prop :=
  ∀ B : ℝ, 1 ≤ B → x.det ≠ 0 → (∀ k l, |x k l| ≤ B ∧ |x⁻¹ k l| ≤ B) → u * (n * B) ^ 4 ≤ 1 →
    ∃ E : Matrix (Fin n) (Fin n) ℝ, (∀ k l, |E k l| ≤ u * B) ∧ Matrix.mulVec (x + E) X = Pi.single j 1

/-- The values an evaluation of the expression, operation by operation, may give when the symbols have the values `ρ`. -/
inductive Expr.Rounded (u : ℝ) (ρ : Var → ℝ) : Expr → ℝ → Prop
  | const {c v : ℝ} (h : Near u c v) : Rounded u ρ (.const c) v
  | var (x : Var) : Rounded u ρ (.var x) (ρ x)
  | add {a b : Expr} {x y v : ℝ} (ha : Rounded u ρ a x) (hb : Rounded u ρ b y) (h : Near u (x + y) v) : Rounded u ρ (.add a b) v
  | sub {a b : Expr} {x y v : ℝ} (ha : Rounded u ρ a x) (hb : Rounded u ρ b y) (h : Near u (x - y) v) : Rounded u ρ (.sub a b) v
  | mul {a b : Expr} {x y v : ℝ} (ha : Rounded u ρ a x) (hb : Rounded u ρ b y) (h : Near u (x * y) v) : Rounded u ρ (.mul a b) v
  | div {a b : Expr} {x y v : ℝ} (ha : Rounded u ρ a x) (hb : Rounded u ρ b y) (h : Near u (x / y) v) : Rounded u ρ (.div a b) v
  | neg {a : Expr} {x : ℝ} (ha : Rounded u ρ a x) : Rounded u ρ (.neg a) (-x)
  | sin {a : Expr} {x v : ℝ} (ha : Rounded u ρ a x) (h : Near u (Real.sin x) v) : Rounded u ρ (.sin a) v
  | cos {a : Expr} {x v : ℝ} (ha : Rounded u ρ a x) (h : Near u (Real.cos x) v) : Rounded u ρ (.cos a) v
  | sqrt {a : Expr} {x v : ℝ} (ha : Rounded u ρ a x) (h : Near u (Real.sqrt x) v) : Rounded u ρ (.sqrt a) v
  | pow {a : Expr} {n : ℕ} {x v : ℝ} (ha : Rounded u ρ a x) (h : Near u (x ^ n) v) : Rounded u ρ (.pow a n) v
  | inv {n : ℕ} {A : Fin n → Fin n → Expr} {x : Fin n → Fin n → ℝ} {X : Fin n → ℝ} {j : Fin n} (hA : ∀ k l, Rounded u ρ (A k l) (x k l))
      (h : SolvesNear u (Matrix.of x) j X) (i : Fin n) : Rounded u ρ (.inv n A i j) (X i)

/-- A machine that evaluates expressions with operations as in `Near`. -/
structure Machine (u : ℝ) where
  ev : (Var → ℝ) → Expr → ℝ
  rounds : ∀ ρ e, Expr.Rounded u ρ e (ev ρ e)

/-- Evaluation with one function `fl` that rounds the result of every operation. -/
def Expr.evalFl (fl : ℝ → ℝ) (ρ : Var → ℝ) : Expr → ℝ
  | const c => fl c
  | var v => ρ v
  | add a b => fl (evalFl fl ρ a + evalFl fl ρ b)
  | sub a b => fl (evalFl fl ρ a - evalFl fl ρ b)
  | mul a b => fl (evalFl fl ρ a * evalFl fl ρ b)
  | div a b => fl (evalFl fl ρ a / evalFl fl ρ b)
  | neg a => - evalFl fl ρ a
  | sin a => fl (Real.sin (evalFl fl ρ a))
  | cos a => fl (Real.cos (evalFl fl ρ a))
  | sqrt a => fl (Real.sqrt (evalFl fl ρ a))
  | pow a n => fl (evalFl fl ρ a ^ n)
  | inv n A i j => (Matrix.of fun k l : Fin n => evalFl fl ρ (A k l))⁻¹ i j

variable {u : ℝ}

theorem solvesNear_exact (h0 : 0 ≤ u) {n : ℕ} (x : Matrix (Fin n) (Fin n) ℝ) (j : Fin n) : SolvesNear u x j fun i => x⁻¹ i j := fun B hB hd _ _ =>
  ⟨0, fun k l => by
    rw [Matrix.zero_apply, abs_zero]
    positivity, by
    have h : x * x⁻¹ = 1 := Matrix.mul_nonsing_inv x (isUnit_iff_ne_zero.2 hd)
    funext k
    have h2 := congrFun (congrFun h k) j
    rw [Matrix.mul_apply, Matrix.one_apply] at h2
    rw [add_zero, Pi.single_apply]
    exact h2⟩

/-- The machine that rounds with `fl`. -/
def Machine.ofFl {fl : ℝ → ℝ} (h : ∀ x, Near u x (fl x)) : Machine u where
  ev := Expr.evalFl fl
  rounds ρ e := by
    induction e with
    | const c => exact .const (h _)
    | var v => exact .var v
    | add a b ha hb => exact .add ha hb (h _)
    | sub a b ha hb => exact .sub ha hb (h _)
    | mul a b ha hb => exact .mul ha hb (h _)
    | div a b ha hb => exact .div ha hb (h _)
    | neg a ha => exact .neg ha
    | sin a ha => exact .sin ha (h _)
    | cos a ha => exact .cos ha (h _)
    | sqrt a ha => exact .sqrt ha (h _)
    | pow a n ha => exact .pow ha (h _)
    | inv n A i j ih =>
      have h0 : 0 ≤ u := by
        by_contra hu
        have := h 1 (by rw [abs_one]; linarith)
        rw [abs_one, max_eq_left (by linarith)] at this
        linarith [abs_nonneg (fl 1 - 1)]
      exact .inv ih (solvesNear_exact h0 _ j) i

/-- The exponent of the last binary digit of the number of type `double` closest to `x`: 53 significant digits, but none below `2 ^ (-1074)`. -/
def lastDigit (x : ℝ) : ℤ := max (Int.log 2 |x| - 52) (-1074)

/-- Rounding to the nearest number of type `double`, with gradual underflow.  Values of `2 ^ 1024` and more overflow; the result is infinite, for which
zero stands here. -/
def nearest (x : ℝ) : ℝ := if |x| < 2 ^ 1024 then round (x / 2 ^ lastDigit x) * 2 ^ lastDigit x else 0

/-- Its error. -/
theorem near_nearest (x : ℝ) : Near (2 ^ (-53 : ℤ)) x (nearest x) := by
  intro hr
  have hlt : |x| < 2 ^ 1024 := by
    have h1 : |x| ≤ 2 ^ 53 := by
      have e : (2 : ℝ) ^ (-53 : ℤ) * 2 ^ 53 = 1 := by norm_num
      have : (0 : ℝ) < 2 ^ (-53 : ℤ) := by positivity
      nlinarith
    exact h1.trans_lt (pow_lt_pow_right₀ one_lt_two (by norm_num))
  unfold nearest
  rw [if_pos hlt]
  rcases eq_or_ne x 0 with rfl | hx
  · rw [zero_div, round_zero, Int.cast_zero, zero_mul, sub_zero, abs_zero]
    positivity
  have hp : (0 : ℝ) < 2 ^ lastDigit x := by positivity
  have h2 := abs_sub_round (x / 2 ^ lastDigit x)
  have h3 : (round (x / 2 ^ lastDigit x) : ℝ) * 2 ^ lastDigit x - x = -((x / 2 ^ lastDigit x - round (x / 2 ^ lastDigit x)) * 2 ^ lastDigit x) := by
    rw [sub_mul, div_mul_cancel₀ _ hp.ne']
    ring
  rw [h3, abs_neg, abs_mul, abs_of_pos hp]
  refine (mul_le_mul_of_nonneg_right h2 hp.le).trans ?_
  have h4 : ∀ k : ℤ, (1 / 2 : ℝ) * 2 ^ k = 2 ^ (-53 : ℤ) * 2 ^ (k + 52) := fun k => by
    rw [show (1 / 2 : ℝ) = 2 ^ (-1 : ℤ) by norm_num, ← zpow_add₀ two_ne_zero, ← zpow_add₀ two_ne_zero]
    congr 1
    ring
  rw [h4]
  refine mul_le_mul_of_nonneg_left ?_ (by positivity)
  rcases le_total (Int.log 2 |x| - 52) (-1074) with h | h
  · refine le_trans ?_ (le_max_right _ _)
    rw [lastDigit, max_eq_right h]
    exact zpow_le_zpow_right₀ one_le_two (by norm_num)
  · refine le_trans ?_ (le_max_left _ _)
    rw [lastDigit, max_eq_left h, sub_add_cancel]
    simpa using Int.zpow_log_le_self (b := 2) (by norm_num) (abs_pos.2 hx)

/-- A machine with the arithmetic of the type `double`. -/
def Machine.double : Machine (2 ^ (-53 : ℤ)) := .ofFl near_nearest

/-- `CFun.evalWith` on a machine. -/
def CFun.evalOn (m : Machine u) (f : CFun) (l : List (Var × Num)) : List Num :=
  if ∀ p ∈ l, p.2 ≠ none then f.out.elements.map fun e => some (m.ev (fun v => ((bound l v).join).getD 0) e)
  else f.out.elements.map fun _ => none

/-- `casadi_fun[name].call(inputs, result)` on a machine, src/robot.cpp:376. -/
def CFun.callOn (m : Machine u) (f : CFun) (vals : List (List Num)) : Option (List Num) :=
  if vals.length = f.inputs.length then
    ((List.zip f.inputs vals).mapM fun p => (fitInput p.1.length p.2).map fun v => List.zip p.1 v).map fun l => f.evalOn m l.flatten
  else none

namespace Robot

open Act

/-- `get` on a machine, src/robot.cpp:356-391. -/
def getOn (m : Machine u) (name : String) : Act Robot Mat := do
  let r ← read
  match r.funArgs.find name with
  | none => pure ⟨1, 1, [some 0]⟩
  | some fargs =>
    modify fun r => fargs.foldl touchArg { r with model := r.model.ins name (SX.zeros 0 0) }
    let f ← ofIdx (r.funs.find name)
    let res ← ofExc (f.callOn m (fargs.map r.arg))
    let data ← ofIdx (fill ((r.mod name).rows * (r.mod name).cols) res)
    pure ⟨(r.mod name).rows, (r.mod name).cols, data⟩

end Robot

namespace Wrap

/-- A call of the generated `get_<f>` on a machine, src/utils.cpp:204-229. -/
def getterOn (m : Machine u) (r : Robot) (f : String) (s : Obj) : Got :=
  match r.funs.find f, (r.funArgs.get f []).mapM member with
  | some F, some fs =>
    if F.inputs.length ≤ fs.length then
      match (List.zip F.inputs fs).mapM fun p => readInput p.1 (s.vec p.2) with
      | none => .ub
      | some l =>
        match Robot.fill ((r.mod f).rows * (r.mod f).cols) (F.evalOn m l.flatten) with
        | none => .ub
        | some d => .value ⟨(r.mod f).rows, (r.mod f).cols, d⟩
    else .ub
  | _, _ => .unknown

end Wrap

end

end Thunder
