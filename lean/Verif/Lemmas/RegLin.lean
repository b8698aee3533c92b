import Verif.Lemmas.Friction
import Verif.Lemmas.Smooth
import Verif.Model.Regressors
import Verif.Spec.Regressor

/-!
# Expressions that are affine in a parameter vector, and their parameter Jacobians
-/

set_option linter.unusedSectionVars false

open scoped Classical
open Matrix

namespace Thunder

noncomputable section

/-- Parameter vector of which exactly the flagged entries are symbols (the state after `init_symb_parameters`,
src/robot.cpp:1078-1123). -/
structure ParSym (name : String) (k : ℕ) (A : SX) (flags : List ℤ) : Prop extends ParVec name k A where
  sym : ∀ i < k, flags.getD i 0 ≠ 0 → A.e i 0 = .var ⟨name, i⟩
  num : ∀ i < k, flags.getD i 0 = 0 → ∃ c, A.e i 0 = .const c

/-- `e` is affine in the symbols `⟨name, i⟩`, `i ∈ L`, with slopes that do not depend on the symbols `name`. -/
structure LinExact (name : String) (k : ℕ) (L : List ℕ) (e : Expr) : Prop where
  exact : ∀ ρ : Var → ℝ, e.eval ρ =
    ∑ c : Fin L.length, Expr.dir ρ (Expr.single ⟨name, L[c]⟩) e * ρ ⟨name, L[c]⟩ + e.eval (setV name ρ (0 : Fin k → ℝ))
  indep : ∀ (ρ : Var → ℝ) (p : Fin k → ℝ) (c : Fin L.length),
    Expr.dir (setV name ρ p) (Expr.single ⟨name, L[c]⟩) e = Expr.dir ρ (Expr.single ⟨name, L[c]⟩) e

variable {name : String} {k : ℕ} {L : List ℕ}

theorem LinExact.const (c : ℝ) : LinExact name k L (.const c) := ⟨by simp, by simp⟩

theorem LinExact.smul {a b : Expr} (ha : ∀ v ∈ a.fv, v.name ≠ name) (hb : LinExact name k L b) :
    LinExact name k L (Expr.smul a b) := by
  have hd : ∀ ρ : Var → ℝ, ∀ c : Fin L.length, Expr.dir ρ (Expr.single ⟨name, L[c]⟩) a = 0 := fun ρ c =>
    Expr.dir_eq_zero fun v hv => Expr.single_ne (by rintro rfl; exact ha _ hv rfl)
  have he : ∀ (ρ : Var → ℝ) (p : Fin k → ℝ), a.eval (setV name ρ p) = a.eval ρ := fun ρ p =>
    Expr.eval_congr fun v hv => setV_ne (ha v hv)
  constructor
  · intro ρ
    simp only [Expr.eval_smul, Expr.dir_smul', hd, zero_mul, zero_add, he]
    rw [hb.exact ρ, mul_add, Finset.mul_sum]
    simp only [mul_assoc]
  · intro ρ p c
    simp only [Expr.dir_smul', hd, zero_mul, zero_add, he, hb.indep]

theorem LinExact.smul_right {a b : Expr} (ha : LinExact name k L a) (hb : ∀ v ∈ b.fv, v.name ≠ name) :
    LinExact name k L (Expr.smul a b) := by
  have h := LinExact.smul hb ha
  refine ⟨fun ρ => ?_, fun ρ p c => ?_⟩
  · have := h.exact ρ
    simp only [Expr.eval_smul, Expr.dir_smul'] at this ⊢
    rw [mul_comm, this, mul_comm (Expr.eval (setV name ρ 0) b)]
    congr 1
    exact Finset.sum_congr rfl fun c _ => by ring
  · have := h.indep ρ p c
    simp only [Expr.dir_smul'] at this ⊢
    rw [add_comm, mul_comm (Expr.eval _ a), mul_comm (Expr.dir _ _ a), this]; ring

theorem LinExact.sumN {n : ℕ} {f : ℕ → Expr} (h : ∀ i < n, LinExact name k L (f i)) : LinExact name k L (sumN n f) := by
  constructor
  · intro ρ
    simp only [eval_sumN, dir_sumN, Finset.sum_mul]
    rw [Finset.sum_comm, ← Finset.sum_add_distrib]
    exact Finset.sum_congr rfl fun i hi => (h i (Finset.mem_range.mp hi)).exact ρ
  · intro ρ p c
    simp only [dir_sumN]
    exact Finset.sum_congr rfl fun i hi => (h i (Finset.mem_range.mp hi)).indep ρ p c

theorem symIdx_nodup (flags : List ℤ) (k : ℕ) : (Spec.symIdx flags k).Nodup := List.nodup_range.filter _

theorem mem_symIdx {flags : List ℤ} {k i : ℕ} : i ∈ Spec.symIdx flags k ↔ i < k ∧ flags.getD i 0 ≠ 0 := by
  simp [Spec.symIdx]

/-- The entries of a parameter vector. -/
theorem ParSym.linExact {A : SX} {flags : List ℤ} (h : ParSym name k A flags) (i : ℕ) :
    LinExact name k (Spec.symIdx flags k) (A.e i 0) := by
  rcases h.e i 0 with ⟨hv, hi, _⟩ | ⟨c, hc⟩
  · have hf : flags.getD i 0 ≠ 0 := by
      intro h0
      obtain ⟨c, hc⟩ := h.num i hi h0
      rw [hv] at hc; cases hc
    rw [hv]
    constructor
    · intro ρ
      simp only [Expr.eval_var, Expr.dir_var]
      rw [setV_self' hi, Pi.zero_apply, add_zero]
      obtain ⟨c, hc, e⟩ := List.mem_iff_getElem.mp (mem_symIdx.mpr ⟨hi, hf⟩)
      rw [Finset.sum_eq_single ⟨c, hc⟩]
      · change _ = Expr.single ⟨name, (Spec.symIdx flags k)[c]⟩ _ * ρ ⟨name, (Spec.symIdx flags k)[c]⟩
        rw [e]; simp
      · intro b _ hb
        rw [Expr.single_ne, zero_mul]
        intro h'
        apply hb
        have h2 : (Spec.symIdx flags k)[(b : ℕ)] = i := by injection h' with _ h''; exact h''.symm
        exact Fin.ext ((symIdx_nodup flags k).getElem_inj_iff.mp (h2.trans e.symm))
      · simp
    · intro ρ p c; rfl
  · rw [hc]; exact .const c

/-! ### The Jacobian with respect to the symbolic entries -/

/-- Entry of `jacobian(A, [symbolic entries of p])` for a column `A`. -/
theorem eval_jacobian_symbPar (ρ : Var → ℝ) (A : SX) {p : SX} {flags : List ℤ} (h : ParSym name k p flags)
    {r : ℕ} (hr : r < A.rows) (c : Fin (Spec.symIdx flags k).length) :
    Expr.eval ρ ((SX.jacobian A (SX.ofList (Base.symbPar p flags))).e r c) =
      Expr.dir ρ (Expr.single ⟨name, (Spec.symIdx flags k)[c]⟩) (A.e r 0) := by
  have hs : Base.symbPar p flags = (Spec.symIdx flags k).map fun i => p.e i 0 := by
    rw [Base.symbPar, h.rows, Spec.symIdx]
  obtain ⟨h1, h2⟩ := mem_symIdx.mp (List.getElem_mem c.2)
  simp only [SX.jacobian, Nat.mod_eq_of_lt hr, Nat.div_eq_of_lt hr, hs, SX.ofList, if_true]
  refine SX.eval_Dx ρ _ _ ?_
  rw [List.getD_eq_getElem?_getD, List.getElem?_map, List.getElem?_eq_getElem c.2]
  exact h.sym _ h1 h2

/-- Matrix form: `A(ρ) = jacobian · (symbolic parameters) + A at zero`, and the Jacobian does not depend on the parameters. -/
theorem jacobian_exact (A : SX) {n : ℕ} (hn : A.rows = n) {p : SX} {flags : List ℤ} (h : ParSym name k p flags)
    (hA : ∀ r < n, LinExact name k (Spec.symIdx flags k) (A.e r 0)) (ρ : Var → ℝ) :
    (SX.vec ρ A n = SX.val ρ (SX.jacobian A (SX.ofList (Base.symbPar p flags))) n (Spec.symIdx flags k).length *ᵥ
        (fun c => ρ ⟨name, (Spec.symIdx flags k)[c]⟩) + SX.vec (setV name ρ (0 : Fin k → ℝ)) A n) ∧
    ∀ p' : Fin k → ℝ,
      SX.val (setV name ρ p') (SX.jacobian A (SX.ofList (Base.symbPar p flags))) n (Spec.symIdx flags k).length =
      SX.val ρ (SX.jacobian A (SX.ofList (Base.symbPar p flags))) n (Spec.symIdx flags k).length := by
  subst hn
  constructor
  · ext r
    simp only [SX.vec_apply, Pi.add_apply, mulVec, dotProduct, SX.val_apply]
    rw [(hA r r.2).exact ρ]
    congr 1
    refine Finset.sum_congr rfl fun c _ => ?_
    rw [eval_jacobian_symbPar ρ A h r.2 c]
  · intro p'
    ext r c
    simp only [SX.val_apply]
    rw [eval_jacobian_symbPar _ A h r.2 c, eval_jacobian_symbPar _ A h r.2 c]
    exact (hA r r.2).indep ρ p' c

theorem fv_sym_name {nm : String} {n i j : ℕ} : ∀ v ∈ ((SX.sym nm n).e i j).fv, v.name = nm := by
  intro v hv
  exact List.mem_singleton.mp (over_sym_names (l := [nm]) (by simp) _ _ hv)

theorem fv_fricTerm (v : Expr) (ord : ℕ) : (fricTerm v ord).fv ⊆ v.fv := by
  unfold fricTerm
  split_ifs
  · exact subset_rfl
  · exact (Expr.fv_smul _ _).trans (Set.union_subset subset_rfl subset_rfl)

theorem linExact_fricLaw {p : SX} {flags : List ℤ} (h : ParSym name k p flags) {v : Expr} (hv : ∀ w ∈ v.fv, w.name ≠ name)
    (base order : ℕ) : LinExact name k (Spec.symIdx flags k) (fricLaw v p base order) :=
  LinExact.sumN fun _ _ => LinExact.smul (fun w hw => hv w (fv_fricTerm _ _ hw)) (h.linExact _)

theorem linExact_oddLaw {p : SX} {flags : List ℤ} (h : ParSym name k p flags) {v : Expr} (hv : ∀ w ∈ v.fv, w.name ≠ name)
    (base order : ℕ) : LinExact name k (Spec.symIdx flags k) (oddLaw v p base order) :=
  LinExact.sumN fun _ _ => LinExact.smul (fun w hw => hv w hw) (h.linExact _)

theorem fv_ssub_names {a b : Expr} {x y : String} (ha : ∀ v ∈ a.fv, v.name = x) (hb : ∀ v ∈ b.fv, v.name = y) (hx : x ≠ name)
    (hy : y ≠ name) : ∀ w ∈ (Expr.ssub a b).fv, w.name ≠ name := by
  intro w hw
  rcases Expr.fv_ssub _ _ hw with h | h
  · rw [ha w h]; exact hx
  · rw [hb w h]; exact hy

/-- When every entry is flagged, the symbolic positions are all positions. -/
theorem symIdx_all {flags : List ℤ} {k : ℕ} (h : ∀ i < k, flags.getD i 0 ≠ 0) : Spec.symIdx flags k = List.range k := by
  rw [Spec.symIdx, List.filter_eq_self]
  intro i hi
  simpa using h i (List.mem_range.mp hi)

namespace Base

variable [Fl] {B : Base}

theorem Jv_rows (i : ℕ) : (B.Jv i).rows = 3 := by simp only [Jv]; split_ifs <;> rfl
theorem Jv_cols (i : ℕ) : (B.Jv i).cols = B.n := by simp only [Jv]; split_ifs <;> rfl
theorem J_rows (i : ℕ) : (B.J i).rows = 6 := by
  change (B.Jv i).rows + 3 = 6
  rw [Jv_rows]
theorem J_cols (i : ℕ) : (B.J i).cols = B.n := Jv_cols i
theorem Jee_rows : B.Jee.rows = 6 := J_rows _
theorem Jee_cols : B.Jee.cols = B.n := J_cols _

end Base

end

end Thunder
