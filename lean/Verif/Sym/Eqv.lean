import Verif.Sym.SX

/-!
# Expressions that agree for given values of some symbols

`Eqv P e e'` says that `e` and `e'` can be turned into each other by replacing symbols `v` with `P v = some c` by the number `c` and by
simplifications of zeros and of functions of constants.  Such expressions have the same value whenever the symbols have those values
(`Eqv.eval`), and the relation is preserved by derivatives with respect to the other symbols (`Eqv.D`).
-/

open scoped Classical

namespace Thunder

namespace Expr

noncomputable section

/-- Equality of expressions up to the given values of symbols. -/
inductive Eqv (P : Var → Option ℝ) : Expr → Expr → Prop
  | refl (e) : Eqv P e e
  | symm {a b} : Eqv P a b → Eqv P b a
  | trans {a b c} : Eqv P a b → Eqv P b c → Eqv P a c
  | par {v c} : P v = some c → Eqv P (var v) (const c)
  | zero_add (b) : Eqv P (add (const 0) b) b
  | add_zero (a) : Eqv P (add a (const 0)) a
  | sub_zero (a) : Eqv P (sub a (const 0)) a
  | zero_sub (b) : Eqv P (sub (const 0) b) (neg b)
  | zero_mul (b) : Eqv P (mul (const 0) b) (const 0)
  | mul_zero (a) : Eqv P (mul a (const 0)) (const 0)
  | zero_div (b) : Eqv P (div (const 0) b) (const 0)
  | neg_const (c) : Eqv P (neg (const c)) (const (-c))
  | cos_const (c) : Eqv P (cos (const c)) (const (Real.cos c))
  | sin_const (c) : Eqv P (sin (const c)) (const (Real.sin c))
  | add {a a' b b'} : Eqv P a a' → Eqv P b b' → Eqv P (add a b) (add a' b')
  | sub {a a' b b'} : Eqv P a a' → Eqv P b b' → Eqv P (sub a b) (sub a' b')
  | mul {a a' b b'} : Eqv P a a' → Eqv P b b' → Eqv P (mul a b) (mul a' b')
  | div {a a' b b'} : Eqv P a a' → Eqv P b b' → Eqv P (div a b) (div a' b')
  | neg {a a'} : Eqv P a a' → Eqv P (neg a) (neg a')
  | sin {a a'} : Eqv P a a' → Eqv P (sin a) (sin a')
  | cos {a a'} : Eqv P a a' → Eqv P (cos a) (cos a')
  | sqrt {a a'} : Eqv P a a' → Eqv P (sqrt a) (sqrt a')
  | pow {a a'} (n) : Eqv P a a' → Eqv P (pow a n) (pow a' n)
  | inv {n A A'} (i j) : (∀ k l, Eqv P (A k l) (A' k l)) → Eqv P (inv n A i j) (inv n A' i j)

variable {P : Var → Option ℝ}

/-- The values agree. -/
theorem Eqv.eval {ρ : Var → ℝ} (hρ : ∀ v c, P v = some c → ρ v = c) {e e' : Expr} (h : Eqv P e e') : Expr.eval ρ e = Expr.eval ρ e' := by
  induction h with
  | refl => rfl
  | symm _ ih => exact ih.symm
  | trans _ _ i1 i2 => exact i1.trans i2
  | par h => exact hρ _ _ h
  | zero_add | add_zero | sub_zero | zero_sub | zero_mul | mul_zero | zero_div => simp [Expr.eval]
  | neg_const | cos_const | sin_const => rfl
  | add _ _ i1 i2 | sub _ _ i1 i2 | mul _ _ i1 i2 | div _ _ i1 i2 => simp only [Expr.eval, i1, i2]
  | neg _ i1 | sin _ i1 | cos _ i1 | sqrt _ i1 | pow _ _ i1 => simp only [Expr.eval, i1]
  | inv i j _ ih => simp only [Expr.eval, ih]

/-! ### Node construction -/

theorem eqv_sadd (a b : Expr) : Eqv P (sadd a b) (add a b) := by
  unfold Expr.sadd
  split_ifs with h1 h2
  · subst h1; exact (Eqv.zero_add b).symm
  · subst h2; exact (Eqv.add_zero a).symm
  · exact .refl _
theorem eqv_ssub (a b : Expr) : Eqv P (ssub a b) (sub a b) := by
  unfold Expr.ssub
  split_ifs with h1 h2
  · subst h1; exact (Eqv.sub_zero a).symm
  · subst h2; exact (Eqv.zero_sub b).symm
  · exact .refl _
theorem eqv_smul (a b : Expr) : Eqv P (smul a b) (mul a b) := by
  unfold Expr.smul
  split_ifs with h
  · rcases h with h | h
    · subst h; exact (Eqv.zero_mul b).symm
    · subst h; exact (Eqv.mul_zero a).symm
  · exact .refl _
theorem eqv_sneg (a : Expr) : Eqv P (sneg a) (neg a) := by
  unfold Expr.sneg
  split_ifs with h
  · subst h
    have := Eqv.neg_const (P := P) 0
    rw [_root_.neg_zero] at this
    exact this.symm
  · exact .refl _
theorem eqv_sdiv (a b : Expr) : Eqv P (sdiv a b) (div a b) := by
  unfold Expr.sdiv
  split_ifs with h
  · subst h; exact (Eqv.zero_div b).symm
  · exact .refl _

variable {a a' b b' : Expr}

theorem Eqv.sadd (h : Eqv P a a') (h' : Eqv P b b') : Eqv P (sadd a b) (sadd a' b') :=
  ((eqv_sadd a b).trans (h.add h')).trans (eqv_sadd a' b').symm
theorem Eqv.ssub (h : Eqv P a a') (h' : Eqv P b b') : Eqv P (ssub a b) (ssub a' b') :=
  ((eqv_ssub a b).trans (h.sub h')).trans (eqv_ssub a' b').symm
theorem Eqv.smul (h : Eqv P a a') (h' : Eqv P b b') : Eqv P (smul a b) (smul a' b') :=
  ((eqv_smul a b).trans (h.mul h')).trans (eqv_smul a' b').symm
theorem Eqv.sneg (h : Eqv P a a') : Eqv P (sneg a) (sneg a') :=
  ((eqv_sneg a).trans h.neg).trans (eqv_sneg a').symm
theorem Eqv.sdiv (h : Eqv P a a') (h' : Eqv P b b') : Eqv P (sdiv a b) (sdiv a' b') :=
  ((eqv_sdiv a b).trans (h.div h')).trans (eqv_sdiv a' b').symm

theorem eqv_sumE {ι : Type} {f g : ι → Expr} (l : List ι) (h : ∀ i ∈ l, Eqv P (f i) (g i)) : Eqv P (sumE (l.map f)) (sumE (l.map g)) := by
  induction l with
  | nil => exact .refl _
  | cons i l ih => exact (h i (by simp)).sadd (ih fun j hj => h j (by simp [hj]))

/-- The relation is preserved by derivatives with respect to symbols without a given value. -/
theorem Eqv.D {v : Var} (hv : P v = none) {e e' : Expr} (h : Eqv P e e') : Eqv P (Expr.D v e) (Expr.D v e') := by
  induction h with
  | refl => exact .refl _
  | symm _ ih => exact ih.symm
  | trans _ _ i1 i2 => exact i1.trans i2
  | @par w c h =>
    have : w ≠ v := by rintro rfl; rw [hv] at h; cases h
    simp only [Expr.D, this, if_false]
    exact .refl _
  | zero_add | add_zero => simp only [Expr.D, sadd_zero_left, sadd_zero_right]; exact .refl _
  | sub_zero => simp only [Expr.D, ssub_zero_right]; exact .refl _
  | zero_sub b =>
    simp only [Expr.D]
    refine (eqv_ssub _ _).trans ((Eqv.zero_sub _).trans (eqv_sneg _).symm)
  | zero_mul => simp only [Expr.D, smul_zero_left, sadd_zero_left]; exact .refl _
  | mul_zero => simp only [Expr.D, smul_zero_right, sadd_zero_left]; exact .refl _
  | zero_div => simp only [Expr.D, smul_zero_left, ssub_zero_right, sdiv_zero_left]; exact .refl _
  | neg_const => simp only [Expr.D, sneg_zero]; exact .refl _
  | cos_const | sin_const => simp only [Expr.D, smul_zero_right, sneg_zero]; exact .refl _
  | add _ _ i1 i2 => exact i1.sadd i2
  | sub _ _ i1 i2 => exact i1.ssub i2
  | mul h1 h2 i1 i2 => exact (i1.smul h2).sadd (h1.smul i2)
  | div h1 h2 i1 i2 => exact ((i1.smul h2).ssub (h1.smul i2)).sdiv (h2.pow 2)
  | neg _ i1 => exact i1.sneg
  | sin h1 i1 => exact h1.cos.smul i1
  | cos h1 i1 => exact (h1.sin.smul i1).sneg
  | sqrt h1 i1 => exact i1.sdiv ((Eqv.refl _).smul h1.sqrt)
  | pow n h1 i1 => exact ((Eqv.refl _).smul (h1.pow _)).smul i1
  | inv i j h1 ih =>
    refine Eqv.sneg (eqv_sumE _ fun k _ => eqv_sumE _ fun l _ => ?_)
    exact ((Eqv.inv i k h1).smul (ih k l)).smul (Eqv.inv l j h1)

end

end Expr

namespace SX

/-- `A` was built without exception, has size `r × c`, uses only symbols of `S`, and agrees with `A'` (of the same size) for the given values of
symbols. -/
structure Rel (P : Var → Option ℝ) (S : Set Var) (r c : ℕ) (A A' : SX) : Prop where
  ok : A.ok
  rows : A.rows = r
  cols : A.cols = c
  rows' : A'.rows = r
  cols' : A'.cols = c
  over : SX.Over S A
  eqv : ∀ i j, Expr.Eqv P (A.e i j) (A'.e i j)

variable {P : Var → Option ℝ} {S : Set Var} {r c k : ℕ} {A A' B B' : SX}

theorem eqv_sumN {n : ℕ} {f g : ℕ → Expr} (h : ∀ k < n, Expr.Eqv P (f k) (g k)) : Expr.Eqv P (sumN n f) (sumN n g) :=
  Expr.eqv_sumE _ fun i hi => h i (List.mem_range.mp hi)

namespace Rel

theorem mono {T : Set Var} (h : Rel P S r c A A') (hS : S ⊆ T) : Rel P T r c A A' := { h with over := h.over.mono hS }

theorem mtimes (h : Rel P S r k A A') (h' : Rel P S k c B B') : Rel P S r c (mtimes A B) (mtimes A' B') where
  ok := ⟨h.ok, h'.ok, h.cols.trans h'.rows.symm⟩
  rows := h.rows
  cols := h'.cols
  rows' := h.rows'
  cols' := h'.cols'
  over := h.over.mtimes h'.over
  eqv i j := by
    simp only [SX.mtimes]
    rw [h.cols, h.cols']
    exact eqv_sumN fun _ _ => (h.eqv _ _).smul (h'.eqv _ _)

theorem add (h : Rel P S r c A A') (h' : Rel P S r c B B') : Rel P S r c (add A B) (add A' B') where
  ok := ⟨h.ok, h'.ok, h.rows.trans h'.rows.symm, h.cols.trans h'.cols.symm⟩
  rows := h.rows
  cols := h.cols
  rows' := h.rows'
  cols' := h.cols'
  over := h.over.add h'.over
  eqv i j := (h.eqv i j).sadd (h'.eqv i j)

theorem sub (h : Rel P S r c A A') (h' : Rel P S r c B B') : Rel P S r c (sub A B) (sub A' B') where
  ok := ⟨h.ok, h'.ok, h.rows.trans h'.rows.symm, h.cols.trans h'.cols.symm⟩
  rows := h.rows
  cols := h.cols
  rows' := h.rows'
  cols' := h.cols'
  over := h.over.sub h'.over
  eqv i j := (h.eqv i j).ssub (h'.eqv i j)

theorem neg (h : Rel P S r c A A') : Rel P S r c (neg A) (neg A') :=
  ⟨h.ok, h.rows, h.cols, h.rows', h.cols', h.over.neg, fun i j => (h.eqv i j).sneg⟩

theorem scale {s s' : Expr} (hs : Expr.fv s ⊆ S) (he : Expr.Eqv P s s') (h : Rel P S r c A A') : Rel P S r c (scale s A) (scale s' A') :=
  ⟨h.ok, h.rows, h.cols, h.rows', h.cols', h.over.scale hs, fun i j => he.smul (h.eqv i j)⟩

theorem divc (h : Rel P S r c A A') (x : ℝ) : Rel P S r c (divc A x) (divc A' x) :=
  ⟨h.ok, h.rows, h.cols, h.rows', h.cols', h.over.divc x, fun i j => (h.eqv i j).sdiv (.refl _)⟩

theorem transp (h : Rel P S r c A A') : Rel P S c r (transp A) (transp A') :=
  ⟨h.ok, h.cols, h.rows, h.cols', h.rows', h.over.transp, fun i j => h.eqv j i⟩

theorem block (h : Rel P S r c A A') {r0 nr c0 nc : ℕ} (hr : r0 + nr ≤ r) (hc : c0 + nc ≤ c) :
    Rel P S nr nc (block A r0 nr c0 nc) (block A' r0 nr c0 nc) where
  ok := ⟨h.ok, h.rows ▸ hr, h.cols ▸ hc⟩
  rows := rfl
  cols := rfl
  rows' := rfl
  cols' := rfl
  over := h.over.block _ _ _ _
  eqv i j := by
    simp only [SX.block]
    split_ifs
    · exact h.eqv _ _
    · exact .refl _

theorem vcat {r' : ℕ} (h : Rel P S r c A A') (h' : Rel P S r' c B B') : Rel P S (r + r') c (vcat A B) (vcat A' B') where
  ok := ⟨h.ok, h'.ok, h.cols.trans h'.cols.symm⟩
  rows := by rw [← h.rows, ← h'.rows]; rfl
  cols := h.cols
  rows' := by rw [← h.rows', ← h'.rows']; rfl
  cols' := h.cols'
  over := h.over.vcat h'.over
  eqv i j := by
    simp only [SX.vcat]
    rw [h.rows, h.rows']
    split_ifs
    · exact h.eqv _ _
    · exact h'.eqv _ _

theorem hcat {c' : ℕ} (h : Rel P S r c A A') (h' : Rel P S r c' B B') : Rel P S r (c + c') (hcat A B) (hcat A' B') where
  ok := ⟨h.ok, h'.ok, h.rows.trans h'.rows.symm⟩
  rows := h.rows
  cols := by rw [← h.cols, ← h'.cols]; rfl
  rows' := h.rows'
  cols' := by rw [← h.cols', ← h'.cols']; rfl
  over := h.over.hcat h'.over
  eqv i j := by
    simp only [SX.hcat]
    rw [h.cols, h.cols']
    split_ifs
    · exact h.eqv _ _
    · exact h'.eqv _ _

theorem zeros (r c : ℕ) : Rel P S r c (zeros r c) (zeros r c) :=
  ⟨trivial, rfl, rfl, rfl, rfl, SX.Over.zeros _ _, fun _ _ => .refl _⟩

theorem eye (n : ℕ) : Rel P S n n (eye n) (eye n) :=
  ⟨trivial, rfl, rfl, rfl, rfl, SX.Over.eye _, fun _ _ => .refl _⟩

theorem sym {name : String} {n : ℕ} (h : ∀ i < n, (⟨name, i⟩ : Var) ∈ S) : Rel P S n 1 (sym name n) (sym name n) :=
  ⟨trivial, rfl, rfl, rfl, rfl, SX.Over.sym _ _ h, fun _ _ => .refl _⟩

/-- A column of symbols without given value. -/
structure Symbols (P : Var → Option ℝ) (n : ℕ) (x : SX) : Prop where
  ok : x.ok
  rows : x.rows = n
  isSym : ∀ k < n, IsSym (x.e k 0)
  free : ∀ k v, x.e k 0 = .var v → P v = none

theorem symbols_sym {name : String} {n : ℕ} (h : ∀ i, P ⟨name, i⟩ = none) : Symbols P n (SX.sym name n) where
  ok := trivial
  rows := rfl
  isSym k hk := by simp [SX.sym, hk, IsSym]
  free k v hv := by
    simp only [SX.sym] at hv
    split_ifs at hv
    · cases hv; exact h k

theorem eqv_Dx {x e e' : Expr} (hx : ∀ v, x = .var v → P v = none) (h : Expr.Eqv P e e') : Expr.Eqv P (Dx x e) (Dx x e') := by
  cases x <;> first | exact .refl _ | exact h.D (hx _ rfl)

theorem jacobian {x : SX} {n : ℕ} (hx : Symbols P n x) (h : Rel P S r c A A') : Rel P S (r * c) n (jacobian A x) (jacobian A' x) where
  ok := ⟨h.ok, hx.ok, fun k hk => hx.isSym k (hx.rows ▸ hk)⟩
  rows := by simp only [SX.jacobian, h.rows, h.cols]
  cols := hx.rows
  rows' := by simp only [SX.jacobian, h.rows', h.cols']
  cols' := hx.rows
  over := h.over.jacobian x
  eqv i j := by
    simp only [SX.jacobian]
    rw [h.rows, h.rows']
    exact eqv_Dx (hx.free j) (h.eqv _ _)

theorem jtimes {x v v' : SX} {n : ℕ} (hx : Symbols P n x) (hv : Rel P S n 1 v v') (h : Rel P S r c A A') :
    Rel P S r c (jtimes A x v) (jtimes A' x v') where
  ok := ⟨h.ok, hx.ok, hv.ok, hx.rows.trans hv.rows.symm, fun k hk => hx.isSym k (hx.rows ▸ hk)⟩
  rows := h.rows
  cols := h.cols
  rows' := h.rows'
  cols' := h.cols'
  over := h.over.jtimes hv.over x
  eqv _ _ := eqv_sumN fun k _ => (eqv_Dx (hx.free k) (h.eqv _ _)).smul (hv.eqv _ _)

theorem inv (h : Rel P S r r A A') : Rel P S r r (inv A) (inv A') where
  ok := ⟨h.ok, h.rows.trans h.cols.symm⟩
  rows := h.rows
  cols := h.cols
  rows' := h.rows'
  cols' := h.cols'
  over := h.over.inv
  eqv _ _ := by
    obtain ⟨ra, ca, ea, oka⟩ := A
    obtain ⟨rb, cb, eb, okb⟩ := A'
    have h1 : ra = r := h.rows
    have h2 : rb = r := h.rows'
    subst h1 h2
    simp only [SX.inv]
    split_ifs
    · exact Expr.Eqv.inv _ _ fun k l => h.eqv k l
    · exact .refl _

/-- The trivial instance: agreement of a matrix with itself. -/
theorem self (hok : A.ok) (hr : A.rows = r) (hc : A.cols = c) (ho : SX.Over S A) : Rel P S r c A A :=
  ⟨hok, hr, hc, hr, hc, ho, fun _ _ => .refl _⟩

end Rel

end SX

end Thunder
