import Verif.Sym.SX

/-!
# Symbol assignments

`setV name ρ x` gives the entries of the symbol vector `SX::sym(name, n)` the values `x`, leaving the other symbols alone.
-/

open scoped Classical

namespace Thunder

noncomputable section

/-- Assign the vector `x` to the symbol vector `name`. -/
def setV (name : String) (ρ : Var → ℝ) {n : ℕ} (x : Fin n → ℝ) : Var → ℝ :=
  fun v => if h : v.name = name ∧ v.idx < n then x ⟨v.idx, h.2⟩ else ρ v

@[simp] theorem setV_self (name : String) (ρ : Var → ℝ) {n : ℕ} (x : Fin n → ℝ) (i : Fin n) :
    setV name ρ x ⟨name, i⟩ = x i := by simp [setV]

theorem setV_self' {name : String} {ρ : Var → ℝ} {n : ℕ} {x : Fin n → ℝ} {i : ℕ} (h : i < n) :
    setV name ρ x ⟨name, i⟩ = x ⟨i, h⟩ := by simp [setV, h]

theorem setV_ne {name : String} {ρ : Var → ℝ} {n : ℕ} {x : Fin n → ℝ} {v : Var} (h : v.name ≠ name) :
    setV name ρ x v = ρ v := by simp [setV, h]

theorem setV_update (name : String) (ρ : Var → ℝ) {n : ℕ} (x : Fin n → ℝ) (j : Fin n) (t : ℝ) :
    setV name ρ (Function.update x j t) = Function.update (setV name ρ x) ⟨name, j⟩ t := by
  funext v
  by_cases hv : v = ⟨name, j⟩
  · subst hv; simp
  · rw [Function.update_of_ne hv]
    by_cases h : v.name = name ∧ v.idx < n
    · simp only [setV, h, and_self, dite_true]
      rw [Function.update_of_ne]
      rintro rfl
      exact hv (by obtain ⟨a, b⟩ := v; obtain ⟨rfl, _⟩ := h; rfl)
    · simp only [setV, h, dite_false]

theorem setV_comm {a b : String} (hab : a ≠ b) (ρ : Var → ℝ) {m n : ℕ} (x : Fin m → ℝ) (y : Fin n → ℝ) :
    setV a (setV b ρ y) x = setV b (setV a ρ x) y := by
  funext v
  by_cases h1 : v.name = a
  · have h2 : v.name ≠ b := by rw [h1]; exact hab
    rw [setV_ne h2]; simp [setV, h1, hab]
  · rw [setV_ne h1]; simp only [setV, h1, false_and, dite_false]

/-- Velocity that moves the symbol vector `name` with velocity `x`. -/
def dirV (name : String) {n : ℕ} (x : Fin n → ℝ) : Var → ℝ := setV name (fun _ => 0) x

theorem dirV_eq_sum (name : String) {n : ℕ} (x : Fin n → ℝ) :
    dirV name x = fun v => ∑ k : Fin n, x k * Expr.single ⟨name, k⟩ v := by
  funext v
  by_cases h : v.name = name ∧ v.idx < n
  · obtain ⟨nm, ix⟩ := v
    obtain ⟨rfl, h2⟩ := h
    simp only at h2
    simp only [dirV, setV, h2, and_self, dite_true, Expr.single, Var.mk.injEq, true_and, mul_ite, mul_one, mul_zero]
    rw [Finset.sum_eq_single ⟨ix, h2⟩]
    · simp
    · rintro b _ hb
      rw [if_neg]
      rintro rfl
      exact hb rfl
    · simp
  · simp only [dirV, setV, h, dite_false]
    rw [Finset.sum_eq_zero]
    intro k _
    rw [Expr.single_ne, mul_zero]
    rintro rfl
    exact h ⟨rfl, k.2⟩

theorem dir_dirV (ρ : Var → ℝ) (name : String) {n : ℕ} (x : Fin n → ℝ) (e : Expr) :
    Expr.dir ρ (dirV name x) e = ∑ k : Fin n, x k * Expr.dir ρ (Expr.single ⟨name, k⟩) e := by
  rw [dirV_eq_sum, Expr.dir_sum]
  exact Finset.sum_congr rfl fun k _ => Expr.dir_smul _ _ _ _

theorem hasDerivAt_setV {name : String} {n : ℕ} {γ : ℝ → Var → ℝ} {δ : Var → ℝ} {x : ℝ → Fin n → ℝ} {v : Fin n → ℝ} {t₀ : ℝ}
    (hγ : ∀ w, HasDerivAt (fun t => γ t w) (δ w) t₀) (hx : ∀ i, HasDerivAt (fun t => x t i) (v i) t₀) (w : Var) :
    HasDerivAt (fun t => setV name (γ t) (x t) w) (setV name δ v w) t₀ := by
  by_cases h : w.name = name ∧ w.idx < n
  · simp only [setV, h, and_self, dite_true]; exact hx _
  · simp only [setV, h, dite_false]; exact hγ w

theorem hasDerivAt_fix (ρ : Var → ℝ) (t₀ : ℝ) (w : Var) : HasDerivAt (fun _ : ℝ => ρ w) ((fun _ : Var => (0 : ℝ)) w) t₀ :=
  hasDerivAt_const t₀ _

/-- Directions of distinct symbol vectors add up. -/
theorem setV_dir {name : String} {n : ℕ} (δ : Var → ℝ) (x : Fin n → ℝ) (h : ∀ v : Var, v.name = name → δ v = 0) :
    setV name δ x = fun v => dirV name x v + δ v := by
  funext v
  by_cases hv : v.name = name ∧ v.idx < n
  · simp [dirV, setV, hv, h v hv.1]
  · simp [dirV, setV, hv]

namespace SX

/-- `jtimes` with respect to a symbol vector is the directional derivative. -/
theorem eval_jtimes (ρ : Var → ℝ) (A v : SX) (name : String) (n i j : ℕ) :
    Expr.eval ρ ((jtimes A (sym name n) v).e i j) = Expr.dir ρ (dirV name (vec ρ v n)) (A.e i j) := by
  rw [dir_dirV]
  simp only [jtimes, sym, eval_sumN, Expr.eval_smul]
  rw [Finset.sum_range]
  refine Finset.sum_congr rfl fun k _ => ?_
  rw [eval_Dx ρ _ _ (v := ⟨name, k⟩) (by simp), mul_comm]
  rfl

theorem val_jtimes (ρ : Var → ℝ) (A v : SX) (name : String) (n m k : ℕ) :
    val ρ (jtimes A (sym name n) v) m k = dval ρ (dirV name (vec ρ v n)) A m k := by
  ext i j; exact eval_jtimes ρ A v name n i j

/-- Entries of `jacobian` with respect to a symbol vector. -/
theorem eval_jacobian (ρ : Var → ℝ) (A : SX) (name : String) (n r k : ℕ) (hk : k < n) :
    Expr.eval ρ ((jacobian A (sym name n)).e r k) =
      Expr.dir ρ (Expr.single ⟨name, k⟩) (A.e (r % A.rows) (r / A.rows)) := by
  simp only [jacobian, sym]
  rw [eval_Dx ρ _ _ (v := ⟨name, k⟩) (by simp [hk])]

theorem vec_sym (ρ : Var → ℝ) (name : String) (n : ℕ) : vec ρ (sym name n) n = fun i : Fin n => ρ ⟨name, i⟩ := by
  ext i; simp [sym]

variable {S : Set Var}

/-- Partial derivatives of a smooth matrix expression with respect to one component of a symbol vector. -/
theorem hasDerivAt_val_update {A : SX} {name : String} (hA : ∀ S, Smooth S A) (ρ : Var → ℝ) {n : ℕ} (x : Fin n → ℝ) (j : Fin n)
    (m k : ℕ) (a : Fin m) (b : Fin k) :
    HasDerivAt (fun t => val (setV name ρ (Function.update x j t)) A m k a b)
      (dval (setV name ρ x) (Expr.single ⟨name, j⟩) A m k a b) (x j) := by
  have h := Expr.hasDerivAt_D (ρ := setV name ρ x) (v := ⟨name, j⟩) (hA {⟨name, j⟩} a b)
  rw [Expr.eval_D, setV_self] at h
  simp only [setV_update]
  exact h

/-- Derivative along a trajectory of the symbol values. -/
theorem hasDerivAt_val_curve {A : SX} (hA : ∀ S, Smooth S A) {γ : ℝ → Var → ℝ} {δ : Var → ℝ} {t₀ : ℝ}
    (hγ : ∀ v, HasDerivAt (fun t => γ t v) (δ v) t₀) (m k : ℕ) (a : Fin m) (b : Fin k) :
    HasDerivAt (fun t => val (γ t) A m k a b) (dval (γ t₀) δ A m k a b) t₀ :=
  hasDerivAt_val (S := Set.univ) (γ := γ) (fun v _ => hγ v) (fun v hv => absurd (Set.mem_univ v) hv)
    (fun v hv => absurd (Set.mem_univ v) hv) (hA _) m k a b

end SX

end

end Thunder
