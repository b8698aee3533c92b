import Verif.Sym.Expr
import Mathlib.Data.Matrix.Basic
import Mathlib.Data.Matrix.Mul
import Mathlib.Algebra.BigOperators.Fin

/-!
# Matrices of expressions (`casadi::SX`)

`SX` is a dynamically sized matrix of scalar expressions, as `casadi::SX`.  The field `ok` records whether the matrix was built
without a CasADi exception (non-conforming dimensions, slice out of range, …): where the C++ would have thrown, the model
produces a matrix with `ok = False`, and `addFunction` (the only consumer) then yields an exception.  Structural sparsity is not
modelled here: a structural zero is the expression `0`.
Entries outside the declared size are kept equal to the constant `0` by the constructors used in the model.
-/

open scoped Classical

namespace Thunder

noncomputable section

/-- Dynamically sized matrix of expressions. -/
structure SX where
  rows : ℕ
  cols : ℕ
  e : ℕ → ℕ → Expr
  /-- no CasADi exception was thrown while building this matrix -/
  ok : Prop

/-- `∑_{k<n} f k` as an expression. -/
def sumN (n : ℕ) (f : ℕ → Expr) : Expr := Expr.sumE ((List.range n).map f)

@[simp] theorem eval_sumN (ρ : Var → ℝ) (n : ℕ) (f : ℕ → Expr) :
    Expr.eval ρ (sumN n f) = ∑ k ∈ Finset.range n, Expr.eval ρ (f k) := by
  simp only [sumN, Expr.eval_sumE, List.map_map]
  rw [Finset.sum_eq_multiset_sum]
  rfl

@[simp] theorem dir_sumN (ρ δ : Var → ℝ) (n : ℕ) (f : ℕ → Expr) :
    Expr.dir ρ δ (sumN n f) = ∑ k ∈ Finset.range n, Expr.dir ρ δ (f k) := by
  simp only [sumN, Expr.dir_sumE, List.map_map]
  rw [Finset.sum_eq_multiset_sum]
  rfl

theorem fv_sumN_subset {S : Set Var} {n : ℕ} {f : ℕ → Expr} (h : ∀ k < n, Expr.fv (f k) ⊆ S) :
    Expr.fv (sumN n f) ⊆ S := by
  refine (Expr.fv_sumE _).trans ?_
  rintro v ⟨e, he, hv⟩
  simp only [List.mem_map, List.mem_range] at he
  obtain ⟨k, hk, rfl⟩ := he
  exact h k hk hv

theorem smooth_sumN {S : Set Var} {n : ℕ} {f : ℕ → Expr} (h : ∀ k < n, Expr.Smooth S (f k)) :
    Expr.Smooth S (sumN n f) := by
  apply Expr.Smooth.sumE
  intro e he
  simp only [List.mem_map, List.mem_range] at he
  obtain ⟨k, hk, rfl⟩ := he
  exact h k hk

namespace SX

/-- `casadi::SX::zeros(r,c)` or the empty-pattern matrix `casadi::SX(r,c)`. -/
def zeros (r c : ℕ) : SX := ⟨r, c, fun _ _ => .const 0, True⟩

/-- `casadi::SX::sym(name, n, 1)`. -/
def sym (name : String) (n : ℕ) : SX :=
  ⟨n, 1, fun i j => if i < n ∧ j = 0 then .var ⟨name, i⟩ else .const 0, True⟩

/-- `casadi::SX::eye(n)`. -/
def eye (n : ℕ) : SX := ⟨n, n, fun i j => if i < n ∧ i = j then .const 1 else .const 0, True⟩

/-- `casadi::SX::mtimes(A, B)`; throws when the inner dimensions differ. -/
def mtimes (A B : SX) : SX :=
  ⟨A.rows, B.cols, fun i j => sumN A.cols fun k => Expr.smul (A.e i k) (B.e k j), A.ok ∧ B.ok ∧ A.cols = B.rows⟩

/-- Entry-wise sum; throws when the sizes differ. -/
def add (A B : SX) : SX :=
  ⟨A.rows, A.cols, fun i j => Expr.sadd (A.e i j) (B.e i j), A.ok ∧ B.ok ∧ A.rows = B.rows ∧ A.cols = B.cols⟩

/-- Entry-wise difference; throws when the sizes differ. -/
def sub (A B : SX) : SX :=
  ⟨A.rows, A.cols, fun i j => Expr.ssub (A.e i j) (B.e i j), A.ok ∧ B.ok ∧ A.rows = B.rows ∧ A.cols = B.cols⟩

/-- Entry-wise negation. -/
def neg (A : SX) : SX := ⟨A.rows, A.cols, fun i j => Expr.sneg (A.e i j), A.ok⟩

/-- Product of a scalar (1×1) expression with a matrix. -/
def scale (s : Expr) (A : SX) : SX := ⟨A.rows, A.cols, fun i j => Expr.smul s (A.e i j), A.ok⟩

/-- Division of a matrix by a number. -/
def divc (A : SX) (c : ℝ) : SX := ⟨A.rows, A.cols, fun i j => Expr.sdiv (A.e i j) (.const c), A.ok⟩

/-- `A.T()`. -/
def transp (A : SX) : SX := ⟨A.cols, A.rows, fun i j => A.e j i, A.ok⟩

/-- `A(Slice(r0, r0+nr), Slice(c0, c0+nc))`; throws when out of range. -/
def block (A : SX) (r0 nr c0 nc : ℕ) : SX :=
  ⟨nr, nc, fun i j => if i < nr ∧ j < nc then A.e (r0 + i) (c0 + j) else .const 0,
    A.ok ∧ r0 + nr ≤ A.rows ∧ c0 + nc ≤ A.cols⟩

/-- `casadi::SX::vertcat({A, B})`; throws when the column counts differ. -/
def vcat (A B : SX) : SX :=
  ⟨A.rows + B.rows, A.cols, fun i j => if i < A.rows then A.e i j else B.e (i - A.rows) j,
    A.ok ∧ B.ok ∧ A.cols = B.cols⟩

/-- `horzcat(A, B)`; throws when the row counts differ. -/
def hcat (A B : SX) : SX :=
  ⟨A.rows, A.cols + B.cols, fun i j => if j < A.cols then A.e i j else B.e i (j - A.cols),
    A.ok ∧ B.ok ∧ A.rows = B.rows⟩

/-- Column vector with given entries. -/
def ofList (l : List Expr) : SX := ⟨l.length, 1, fun i j => if j = 0 then l.getD i (.const 0) else .const 0, True⟩

/-- Derivative with respect to an expression that must be a plain symbol. -/
def Dx : Expr → Expr → Expr
  | .var v, e => Expr.D v e
  | _, _ => .const 0

/-- An expression is a plain symbol. -/
def IsSym : Expr → Prop
  | .var _ => True
  | _ => False

/-- `casadi::SX::jacobian(A, x)` for a column `x` of symbols: derivative of `vec(A)` (columns stacked) with respect to `x`.
CasADi throws when `x` is not purely symbolic. -/
def jacobian (A x : SX) : SX :=
  ⟨A.rows * A.cols, x.rows, fun r k => Dx (x.e k 0) (A.e (r % A.rows) (r / A.rows)),
    A.ok ∧ x.ok ∧ ∀ k < x.rows, IsSym (x.e k 0)⟩

/-- `casadi::SX::jtimes(A, x, v)`: directional derivative of every entry of `A` along `v` (shape of `A`). -/
def jtimes (A x v : SX) : SX :=
  ⟨A.rows, A.cols, fun i j => sumN x.rows fun k => Expr.smul (Dx (x.e k 0) (A.e i j)) (v.e k 0),
    A.ok ∧ x.ok ∧ v.ok ∧ x.rows = v.rows ∧ ∀ k < x.rows, IsSym (x.e k 0)⟩

/-- `casadi::SX::inv(A)`; throws when `A` is not square. -/
def inv (A : SX) : SX :=
  ⟨A.rows, A.cols, fun i j => if h : i < A.rows ∧ j < A.rows then
      .inv A.rows (fun k l => A.e k l) ⟨i, h.1⟩ ⟨j, h.2⟩ else .const 0,
    A.ok ∧ A.rows = A.cols⟩

/-! ### Values -/

/-- Numeric value of an `m×n` matrix expression. -/
def val (ρ : Var → ℝ) (A : SX) (m n : ℕ) : Matrix (Fin m) (Fin n) ℝ := Matrix.of fun i j => Expr.eval ρ (A.e i j)

/-- Directional derivative of an `m×n` matrix expression. -/
def dval (ρ δ : Var → ℝ) (A : SX) (m n : ℕ) : Matrix (Fin m) (Fin n) ℝ := Matrix.of fun i j => Expr.dir ρ δ (A.e i j)

/-- Value of a column. -/
def vec (ρ : Var → ℝ) (A : SX) (m : ℕ) : Fin m → ℝ := fun i => Expr.eval ρ (A.e i 0)

/-- Directional derivative of a column. -/
def dvec (ρ δ : Var → ℝ) (A : SX) (m : ℕ) : Fin m → ℝ := fun i => Expr.dir ρ δ (A.e i 0)

@[simp] theorem dvec_apply (ρ δ) (A : SX) (m) (i : Fin m) : dvec ρ δ A m i = Expr.dir ρ δ (A.e i 0) := rfl
@[simp] theorem val_apply (ρ) (A : SX) (m n) (i : Fin m) (j : Fin n) : val ρ A m n i j = Expr.eval ρ (A.e i j) := rfl
@[simp] theorem dval_apply (ρ δ) (A : SX) (m n) (i : Fin m) (j : Fin n) :
    dval ρ δ A m n i j = Expr.dir ρ δ (A.e i j) := rfl
@[simp] theorem vec_apply (ρ) (A : SX) (m) (i : Fin m) : vec ρ A m i = Expr.eval ρ (A.e i 0) := rfl

variable (ρ δ : Var → ℝ)

theorem val_mtimes (A B : SX) (m k n : ℕ) (h : A.cols = k) :
    val ρ (mtimes A B) m n = val ρ A m k * val ρ B k n := by
  ext i j
  simp [mtimes, Matrix.mul_apply, h, Finset.sum_range]

theorem dval_mtimes (A B : SX) (m k n : ℕ) (h : A.cols = k) :
    dval ρ δ (mtimes A B) m n = dval ρ δ A m k * val ρ B k n + val ρ A m k * dval ρ δ B k n := by
  ext i j
  simp [mtimes, Matrix.mul_apply, h, Finset.sum_range, Finset.sum_add_distrib]

open Matrix in
theorem vec_mtimes (A B : SX) (m k : ℕ) (h : A.cols = k) : vec ρ (mtimes A B) m = val ρ A m k *ᵥ vec ρ B k := by
  ext i
  simp [mtimes, Matrix.mulVec, dotProduct, h, Finset.sum_range]

open Matrix in
theorem dvec_mtimes (A B : SX) (m k : ℕ) (h : A.cols = k) :
    dvec ρ δ (mtimes A B) m = dval ρ δ A m k *ᵥ vec ρ B k + val ρ A m k *ᵥ dvec ρ δ B k := by
  ext i
  simp [mtimes, Matrix.mulVec, dotProduct, h, Finset.sum_range, Finset.sum_add_distrib]

@[simp] theorem vec_add (A B : SX) (m) : vec ρ (add A B) m = vec ρ A m + vec ρ B m := by ext; simp [add]
@[simp] theorem dvec_add (A B : SX) (m) : dvec ρ δ (add A B) m = dvec ρ δ A m + dvec ρ δ B m := by ext; simp [add]
@[simp] theorem vec_sub (A B : SX) (m) : vec ρ (sub A B) m = vec ρ A m - vec ρ B m := by ext; simp [sub]
@[simp] theorem dvec_sub (A B : SX) (m) : dvec ρ δ (sub A B) m = dvec ρ δ A m - dvec ρ δ B m := by ext; simp [sub]
@[simp] theorem vec_neg (A : SX) (m) : vec ρ (neg A) m = - vec ρ A m := by ext; simp [neg]

@[simp] theorem val_transp (A : SX) (m n) : val ρ (transp A) m n = (val ρ A n m).transpose := rfl
@[simp] theorem dval_transp (A : SX) (m n) : dval ρ δ (transp A) m n = (dval ρ δ A n m).transpose := rfl
@[simp] theorem val_add (A B : SX) (m n) : val ρ (add A B) m n = val ρ A m n + val ρ B m n := by ext; simp [add]
@[simp] theorem dval_add (A B : SX) (m n) : dval ρ δ (add A B) m n = dval ρ δ A m n + dval ρ δ B m n := by
  ext; simp [add]
@[simp] theorem val_sub (A B : SX) (m n) : val ρ (sub A B) m n = val ρ A m n - val ρ B m n := by ext; simp [sub]
@[simp] theorem dval_sub (A B : SX) (m n) : dval ρ δ (sub A B) m n = dval ρ δ A m n - dval ρ δ B m n := by
  ext; simp [sub]
@[simp] theorem val_neg (A : SX) (m n) : val ρ (neg A) m n = - val ρ A m n := by ext; simp [neg]
@[simp] theorem dval_neg (A : SX) (m n) : dval ρ δ (neg A) m n = - dval ρ δ A m n := by ext; simp [neg]
@[simp] theorem val_scale (s : Expr) (A : SX) (m n) : val ρ (scale s A) m n = Expr.eval ρ s • val ρ A m n := by
  ext; simp [scale]
theorem dval_scale (s : Expr) (A : SX) (m n) :
    dval ρ δ (scale s A) m n = Expr.dir ρ δ s • val ρ A m n + Expr.eval ρ s • dval ρ δ A m n := by
  ext; simp [scale]
@[simp] theorem val_zeros (r c m n) : val ρ (zeros r c) m n = 0 := by ext; simp [zeros]
@[simp] theorem dval_zeros (r c m n) : dval ρ δ (zeros r c) m n = 0 := by ext; simp [zeros]
@[simp] theorem val_eye (n) : val ρ (eye n) n n = 1 := by
  ext i j
  by_cases h : i = j
  · subst h; simp [eye]
  · simp [eye, h, Fin.val_inj]
theorem val_divc (A : SX) (c : ℝ) (m n) : val ρ (divc A c) m n = c⁻¹ • val ρ A m n := by
  ext; simp [divc, div_eq_inv_mul]
theorem val_inv (A : SX) (m) (h : A.rows = m) : val ρ (inv A) m m = (val ρ A m m)⁻¹ := by
  subst h
  ext i j
  simp [inv, Expr.eval, val]

theorem eval_Dx (x : Expr) (e : Expr) {v : Var} (h : x = .var v) :
    Expr.eval ρ (Dx x e) = Expr.dir ρ (Expr.single v) e := by
  subst h; exact Expr.eval_D ρ v e

/-! ### Free symbols and smoothness -/

/-- All entries only use symbols in `S`. -/
def Over (S : Set Var) (A : SX) : Prop := ∀ i j, Expr.fv (A.e i j) ⊆ S

/-- All entries are smooth in the symbols of `S`. -/
def Smooth (S : Set Var) (A : SX) : Prop := ∀ i j, Expr.Smooth S (A.e i j)

variable {S : Set Var} {A B : SX}

theorem Over.mono {S T : Set Var} (h : S ⊆ T) (hA : Over S A) : Over T A := fun i j => (hA i j).trans h

theorem Over.mtimes (hA : Over S A) (hB : Over S B) : Over S (mtimes A B) := fun i j =>
  fv_sumN_subset fun k _ => (Expr.fv_smul _ _).trans (Set.union_subset (hA i k) (hB k j))
theorem Over.add (hA : Over S A) (hB : Over S B) : Over S (add A B) := fun i j =>
  (Expr.fv_sadd _ _).trans (Set.union_subset (hA i j) (hB i j))
theorem Over.sub (hA : Over S A) (hB : Over S B) : Over S (sub A B) := fun i j =>
  (Expr.fv_ssub _ _).trans (Set.union_subset (hA i j) (hB i j))
theorem Over.neg (hA : Over S A) : Over S (neg A) := fun i j => (Expr.fv_sneg _).trans (hA i j)
theorem Over.scale {s : Expr} (hs : Expr.fv s ⊆ S) (hA : Over S A) : Over S (scale s A) := fun i j =>
  (Expr.fv_smul _ _).trans (Set.union_subset hs (hA i j))
theorem Over.divc (hA : Over S A) (c : ℝ) : Over S (divc A c) := fun i j =>
  (Expr.fv_sdiv _ _).trans (Set.union_subset (hA i j) (by simp))
theorem Over.transp (hA : Over S A) : Over S (transp A) := fun i j => hA j i
theorem Over.zeros (r c : ℕ) : Over S (zeros r c) := fun _ _ => by simp [SX.zeros]
theorem Over.eye (n : ℕ) : Over S (eye n) := fun i j => by simp only [SX.eye]; split_ifs <;> simp
theorem Over.block (hA : Over S A) (r0 nr c0 nc : ℕ) : Over S (block A r0 nr c0 nc) := fun i j => by
  simp only [SX.block]; split_ifs
  · exact hA _ _
  · simp
theorem Over.vcat (hA : Over S A) (hB : Over S B) : Over S (vcat A B) := fun i j => by
  simp only [SX.vcat]; split_ifs
  · exact hA _ _
  · exact hB _ _
theorem Over.hcat (hA : Over S A) (hB : Over S B) : Over S (hcat A B) := fun i j => by
  simp only [SX.hcat]; split_ifs
  · exact hA _ _
  · exact hB _ _
theorem fv_Dx (x e : Expr) : Expr.fv (Dx x e) ⊆ Expr.fv e := by
  cases x <;> simp [Dx]
  exact Expr.fv_D _ _
theorem Over.jacobian (hA : Over S A) (x : SX) : Over S (jacobian A x) := fun _ _ => (fv_Dx _ _).trans (hA _ _)
theorem Over.jtimes (hA : Over S A) {v : SX} (hv : Over S v) (x : SX) : Over S (jtimes A x v) := fun i j =>
  fv_sumN_subset fun k _ => (Expr.fv_smul _ _).trans (Set.union_subset ((fv_Dx _ _).trans (hA i j)) (hv k 0))
theorem Over.inv (hA : Over S A) : Over S (inv A) := fun i j => by
  simp only [SX.inv]; split_ifs
  · rintro v ⟨k, l, hv⟩
    exact hA _ _ hv
  · simp
theorem Over.sym (name : String) (n : ℕ) (h : ∀ i < n, (⟨name, i⟩ : Var) ∈ S) : Over S (sym name n) := fun i j => by
  simp only [SX.sym]; split_ifs with h'
  · simpa using h i h'.1
  · simp
theorem Over.ofList {l : List Expr} (h : ∀ e ∈ l, Expr.fv e ⊆ S) : Over S (ofList l) := fun i j => by
  simp only [SX.ofList]
  split_ifs
  · rw [List.getD_eq_getElem?_getD]
    rcases hi : l[i]? with _ | e
    · simp
    · exact h e (List.mem_of_getElem? hi)
  · simp

theorem Smooth.mtimes (hA : Smooth S A) (hB : Smooth S B) : Smooth S (mtimes A B) := fun i j =>
  smooth_sumN fun k _ => (hA i k).smul (hB k j)
theorem Smooth.add (hA : Smooth S A) (hB : Smooth S B) : Smooth S (add A B) := fun i j => (hA i j).sadd (hB i j)
theorem Smooth.sub (hA : Smooth S A) (hB : Smooth S B) : Smooth S (sub A B) := fun i j => (hA i j).ssub (hB i j)
theorem Smooth.neg (hA : Smooth S A) : Smooth S (neg A) := fun i j => (hA i j).sneg
theorem Smooth.scale {s : Expr} (hs : Expr.Smooth S s) (hA : Smooth S A) : Smooth S (scale s A) :=
  fun i j => hs.smul (hA i j)
theorem Smooth.divc (hA : Smooth S A) (c : ℝ) : Smooth S (divc A c) := fun i j => (hA i j).sdiv (by simp)
theorem Smooth.transp (hA : Smooth S A) : Smooth S (transp A) := fun i j => hA j i
theorem Smooth.zeros (r c : ℕ) : Smooth S (zeros r c) := fun _ _ => trivial
theorem Smooth.eye (n : ℕ) : Smooth S (eye n) := fun i j => by simp only [SX.eye]; split_ifs <;> trivial
theorem Smooth.block (hA : Smooth S A) (r0 nr c0 nc : ℕ) : Smooth S (block A r0 nr c0 nc) := fun i j => by
  simp only [SX.block]; split_ifs
  · exact hA _ _
  · trivial
theorem Smooth.vcat (hA : Smooth S A) (hB : Smooth S B) : Smooth S (vcat A B) := fun i j => by
  simp only [SX.vcat]; split_ifs
  · exact hA _ _
  · exact hB _ _
theorem Smooth.hcat (hA : Smooth S A) (hB : Smooth S B) : Smooth S (hcat A B) := fun i j => by
  simp only [SX.hcat]; split_ifs
  · exact hA _ _
  · exact hB _ _
theorem smooth_Dx (x : Expr) {e : Expr} (h : Expr.Smooth S e) : Expr.Smooth S (Dx x e) := by
  cases x <;> first | trivial | exact h.D _
theorem Smooth.jacobian (hA : Smooth S A) (x : SX) : Smooth S (jacobian A x) := fun _ _ => smooth_Dx _ (hA _ _)
theorem Smooth.jtimes (hA : Smooth S A) {v : SX} (hv : Smooth S v) (x : SX) : Smooth S (jtimes A x v) := fun i j =>
  smooth_sumN fun k _ => (smooth_Dx _ (hA i j)).smul (hv k 0)
theorem Smooth.sym (name : String) (n : ℕ) : Smooth S (sym name n) := fun i j => by
  simp only [SX.sym]; split_ifs <;> trivial

/-- Derivative of a smooth matrix expression along a curve of symbol values. -/
theorem hasDerivAt_val {γ : ℝ → Var → ℝ} {δ : Var → ℝ} {t₀ : ℝ}
    (hmove : ∀ v ∈ S, HasDerivAt (fun t => γ t v) (δ v) t₀) (hfix : ∀ v ∉ S, ∀ t, γ t v = γ t₀ v)
    (hzero : ∀ v ∉ S, δ v = 0) (hA : Smooth S A) (m n : ℕ) (i : Fin m) (j : Fin n) :
    HasDerivAt (fun t => val (γ t) A m n i j) (dval (γ t₀) δ A m n i j) t₀ :=
  Expr.hasDerivAt_eval hmove hfix hzero (hA i j)

/-- A matrix without moving symbols has zero derivative. -/
theorem dval_eq_zero {ρ δ : Var → ℝ} (hA : Over S A) (h : ∀ v ∈ S, δ v = 0) (m n : ℕ) : dval ρ δ A m n = 0 := by
  ext i j
  exact Expr.dir_eq_zero fun v hv => h v (hA _ _ hv)

end SX

end

end Thunder
