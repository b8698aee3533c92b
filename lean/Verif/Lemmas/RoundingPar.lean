import Verif.Model.RoundingPar
import Verif.Lemmas.Substitute
import Verif.Lemmas.RoundingRun
import Verif.Lemmas.Wrapper
import Mathlib.Tactic.IntervalCases

/-!
# Rounding errors of the DYN/REG conversion
-/

open scoped Classical

namespace Thunder

noncomputable section

open Expr

/-- One of the two formulas of the parallel-axis theorem. -/
def IsSteiner (st : Expr → (Fin 3 → Expr) → Fin 3 → Fin 3 → Expr) : Prop := st = steinerGenE ∨ st = steinerWrapE

/-- The `k`-th of the ten formulas. -/
def nthE (l : List Expr) (k : ℕ) : Expr := l.getD k (.const 0)

variable {P : (Var → ℝ) → Prop} {st : Expr → (Fin 3 → Expr) → Fin 3 → Fin 3 → Expr} {p : ℕ → Expr} {u : ℝ}

theorem length_linkRegE (st) (p : ℕ → Expr) : (linkRegE st p).length = 10 := by simp [linkRegE, upE]
theorem length_linkDynE (st) (p : ℕ → Expr) : (linkDynE st p).length = 10 := by simp [linkDynE, upE]

theorem nthE_mem {l : List Expr} (hl : l.length = 10) {k : ℕ} (hk : k < 10) : nthE l k ∈ l := by
  have h : k < l.length := hl.symm ▸ hk
  rw [nthE, List.getD_eq_getElem?_getD, List.getElem?_eq_getElem h]
  exact List.getElem_mem h

theorem map_nthE {l : List Expr} (hl : l.length = 10) {α : Type*} (f : Expr → α) : l.map f = (List.range 10).map fun k => f (nthE l k) := by
  refine List.ext_getElem (by simp [hl]) fun k h1 h2 => ?_
  have h : k < l.length := by simpa using h1
  simp [nthE, List.getElem?_eq_getElem h]

/-! ## Properties that the formulas inherit from the parameters -/

/-- A property of sums, differences, products and opposites of expressions with the property. -/
structure Closed (Q : Expr → Prop) : Prop where
  const (c : ℝ) : Q (.const c)
  add {a b : Expr} (ha : Q a) (hb : Q b) : Q (.add a b)
  sub {a b : Expr} (ha : Q a) (hb : Q b) : Q (.sub a b)
  mul {a b : Expr} (ha : Q a) (hb : Q b) : Q (.mul a b)
  neg {a : Expr} (ha : Q a) : Q (.neg a)

theorem closed_tame : Closed (TameOn P ∅) := ⟨.const, .add, .sub, .mul, .neg⟩
theorem closed_fv (T : Set Var) : Closed fun e => fv e ⊆ T :=
  ⟨fun _ => Set.empty_subset _, Set.union_subset, Set.union_subset, Set.union_subset, id⟩

variable {Q : Expr → Prop}

theorem closed_hatE (hQ : Closed Q) {c : Fin 3 → Expr} (hc : ∀ i, Q (c i)) (i j : Fin 3) : Q (hatE c i j) := by
  fin_cases i <;> fin_cases j <;> first | exact hQ.const _ | exact hQ.neg (hc _) | exact hc _

theorem closed_mulE (hQ : Closed Q) {A B : Fin 3 → Fin 3 → Expr} (hA : ∀ i j, Q (A i j)) (hB : ∀ i j, Q (B i j)) (i j : Fin 3) : Q (mulE A B i j) :=
  hQ.add (hQ.add (hQ.mul (hA _ _) (hB _ _)) (hQ.mul (hA _ _) (hB _ _))) (hQ.mul (hA _ _) (hB _ _))

theorem closed_steiner (hQ : Closed Q) (hst : IsSteiner st) {m : Expr} {c : Fin 3 → Expr} (hm : Q m) (hc : ∀ i, Q (c i)) (i j : Fin 3) : Q (st m c i j) := by
  rcases hst with rfl | rfl
  · exact hQ.mul hm (closed_mulE hQ (fun i j => closed_hatE hQ hc j i) (fun i j => closed_hatE hQ hc i j) i j)
  · exact closed_mulE hQ (fun i j => hQ.mul hm (closed_hatE hQ hc i j)) (fun i j => closed_hatE hQ hc j i) i j

theorem closed_vec3 {a b c : Expr} (ha : Q a) (hb : Q b) (hc : Q c) (i : Fin 3) : Q (![a, b, c] i) := by
  fin_cases i <;> assumption

theorem closed_linkRegE (hQ : Closed Q) (hst : IsSteiner st) (hp : ∀ k < 10, Q (p k)) : ∀ e ∈ linkRegE st p, Q e := by
  have hm := hp 0 (by decide)
  have h := closed_steiner hQ hst hm (closed_vec3 (hp 1 (by decide)) (hp 2 (by decide)) (hp 3 (by decide)))
  intro e he
  simp only [linkRegE, upE, List.zipWith_cons_cons, List.zipWith_nil_left, List.cons_append, List.nil_append, List.mem_cons, List.not_mem_nil, or_false] at he
  rcases he with rfl | rfl | rfl | rfl | rfl | rfl | rfl | rfl | rfl | rfl
  · exact hm
  · exact hQ.mul hm (hp 1 (by decide))
  · exact hQ.mul hm (hp 2 (by decide))
  · exact hQ.mul hm (hp 3 (by decide))
  · exact hQ.add (hp 4 (by decide)) (h _ _)
  · exact hQ.add (hp 5 (by decide)) (h _ _)
  · exact hQ.add (hp 6 (by decide)) (h _ _)
  · exact hQ.add (hp 7 (by decide)) (h _ _)
  · exact hQ.add (hp 8 (by decide)) (h _ _)
  · exact hQ.add (hp 9 (by decide)) (h _ _)

theorem closed_linkDynE (hQ : Closed Q) (hst : IsSteiner st) (hp : ∀ k < 10, Q (p k)) (hd : ∀ k < 10, Q (.div (p k) (p 0))) :
    ∀ e ∈ linkDynE st p, Q e := by
  have hm := hp 0 (by decide)
  have h1 := hd 1 (by decide)
  have h2 := hd 2 (by decide)
  have h3 := hd 3 (by decide)
  have h := closed_steiner hQ hst hm (closed_vec3 h1 h2 h3)
  intro e he
  simp only [linkDynE, upE, List.zipWith_cons_cons, List.zipWith_nil_left, List.cons_append, List.nil_append, List.mem_cons, List.not_mem_nil, or_false] at he
  rcases he with rfl | rfl | rfl | rfl | rfl | rfl | rfl | rfl | rfl | rfl
  · exact hm
  · exact h1
  · exact h2
  · exact h3
  · exact hQ.sub (hp 4 (by decide)) (h _ _)
  · exact hQ.sub (hp 5 (by decide)) (h _ _)
  · exact hQ.sub (hp 6 (by decide)) (h _ _)
  · exact hQ.sub (hp 7 (by decide)) (h _ _)
  · exact hQ.sub (hp 8 (by decide)) (h _ _)
  · exact hQ.sub (hp 9 (by decide)) (h _ _)

theorem tame_linkRegE (hst : IsSteiner st) (hp : ∀ k < 10, TameOn P ∅ (p k)) : ∀ e ∈ linkRegE st p, TameOn P ∅ e :=
  closed_linkRegE closed_tame hst hp

theorem tame_linkDynE (hst : IsSteiner st) (hp : ∀ k < 10, TameOn P ∅ (p k)) {μ : ℝ} (hμ : 0 < μ) (hP : ∀ ρ, P ρ → μ ≤ |eval ρ (p 0)|) :
    ∀ e ∈ linkDynE st p, TameOn P ∅ e :=
  closed_linkDynE closed_tame hst hp fun k hk => (hp k hk).div (hp 0 (by decide)) hμ hP

/-- The symbols of the formulas. -/
def parVars : Set Var := {v | ∃ k < 10, v = ⟨"par", k⟩}

theorem fv_linkRegE (hst : IsSteiner st) : ∀ e ∈ linkRegE st parE, fv e ⊆ parVars :=
  closed_linkRegE (closed_fv _) hst fun k hk _ hv => ⟨k, hk, hv⟩

theorem fv_linkDynE (hst : IsSteiner st) : ∀ e ∈ linkDynE st parE, fv e ⊆ parVars :=
  closed_linkDynE (closed_fv _) hst (fun k hk v hv => ⟨k, hk, hv⟩) fun k hk => Set.union_subset (fun v hv => ⟨k, hk, hv⟩) fun v hv => ⟨0, by decide, hv⟩

/-! ## Their exact values -/

theorem eval_linkRegE (hst : IsSteiner st) (ρ : Var → ℝ) {k : ℕ} (hk : k < 10) :
    eval ρ (nthE (linkRegE st p) k) = linParOf (fun k => eval ρ (p k)) k := by
  rcases hst with rfl | rfl <;> interval_cases k <;>
    simp [nthE, linkRegE, upE, steinerGenE, steinerWrapE, scaleE, mulE, trE, hatE, eval, linParOf, Spec.linPar, Spec.originInertia, hat, Matrix.mul_apply,
      Fin.sum_univ_three] <;> ring

theorem eval_linkDynE (hst : IsSteiner st) (ρ : Var → ℝ) {k : ℕ} (hk : k < 10) :
    eval ρ (nthE (linkDynE st p) k) = invPar (fun k => eval ρ (p k)) k := by
  rcases hst with rfl | rfl <;> interval_cases k <;>
    simp [nthE, linkDynE, upE, steinerGenE, steinerWrapE, scaleE, mulE, trE, hatE, eval, invPar, hat, Matrix.mul_apply, Fin.sum_univ_three] <;> ring

/-! ## One after the other -/

theorem subst_linkRegE (hst : IsSteiner st) (σ : Var → Expr) {k : ℕ} (hk : k < 10) :
    (nthE (linkRegE st p) k).subst σ = nthE (linkRegE st fun k => (p k).subst σ) k := by
  rcases hst with rfl | rfl <;> interval_cases k <;> rfl

theorem subst_linkDynE (hst : IsSteiner st) (σ : Var → Expr) {k : ℕ} (hk : k < 10) :
    (nthE (linkDynE st p) k).subst σ = nthE (linkDynE st fun k => (p k).subst σ) k := by
  rcases hst with rfl | rfl <;> interval_cases k <;> rfl

/-! ## The bounds for one link -/

/-- The values of the symbols. -/
def parEnv (p : ℕ → ℝ) (v : Var) : ℝ := p v.idx

theorem reg_error (b : ℝ) : ∃ K u₀, 0 ≤ K ∧ 0 < u₀ ∧ ∀ st, IsSteiner st → ∀ p : ℕ → ℝ, (∀ k < 10, |p k| ≤ b) → ∀ u, 0 ≤ u → u ≤ u₀ → ∀ k < 10, ∀ v,
    Rounded u (parEnv p) (nthE (linkRegE st parE) k) v → |v - linParOf p k| ≤ K * u := by
  obtain ⟨K, u₀, hK, hu, H⟩ := tame_all (P := fun _ => True) (S := ∅) (le_max_right b 0) (linkRegE steinerGenE parE ++ linkRegE steinerWrapE parE) fun e he => by
    rcases List.mem_append.1 he with he | he
    · exact tame_linkRegE (.inl rfl) (fun k _ => .var _) e he
    · exact tame_linkRegE (.inr rfl) (fun k _ => .var _) e he
  refine ⟨K, u₀, hK, hu, fun st hst p hp u h0 h1 k hk v hv => ?_⟩
  have hmem := nthE_mem (length_linkRegE st parE) hk
  have h := H (nthE (linkRegE st parE) k) (by rcases hst with rfl | rfl <;> simp only [List.mem_append, hmem, true_or, or_true]) (parEnv p) trivial
    (fun v hv => by
      obtain ⟨j, hj, rfl⟩ := fv_linkRegE hst _ hmem hv
      exact (hp j hj).trans (le_max_left _ _)) u h0 h1 v hv
  rwa [eval_linkRegE hst _ hk] at h

/-- From linear parameters to bodies, from bodies to linear parameters and back, and from linear parameters to bodies and back. -/
theorem dyn_error (b : ℝ) {μ : ℝ} (hμ : 0 < μ) : ∃ K u₀, 0 ≤ K ∧ 0 < u₀ ∧ ∀ st, IsSteiner st → ∀ p : ℕ → ℝ, (∀ k < 10, |p k| ≤ b) → μ ≤ |p 0| →
    ∀ u, 0 ≤ u → u ≤ u₀ →
      (∀ k < 10, ∀ v, Rounded u (parEnv p) (nthE (linkDynE st parE) k) v → |v - invPar p k| ≤ K * u) ∧
      (∀ w : ℕ → ℝ, (∀ k < 10, Rounded u (parEnv p) (nthE (linkRegE st parE) k) (w k)) →
        ∀ k < 10, ∀ v, Rounded u (parEnv w) (nthE (linkDynE st parE) k) v → |v - p k| ≤ K * u) ∧
      ∀ w : ℕ → ℝ, (∀ k < 10, Rounded u (parEnv p) (nthE (linkDynE st parE) k) (w k)) →
        ∀ k < 10, ∀ v, Rounded u (parEnv w) (nthE (linkRegE st parE) k) v → |v - p k| ≤ K * u := by
  set P : (Var → ℝ) → Prop := fun ρ => μ ≤ |ρ ⟨"par", 0⟩| with hPdef
  let L := fun st => linkDynE st parE ++ linkDynE st (nthE (linkRegE st parE)) ++ linkRegE st (nthE (linkDynE st parE))
  have tR : ∀ {st}, IsSteiner st → ∀ e ∈ linkRegE st parE, TameOn P ∅ e := fun hst => tame_linkRegE hst fun k _ => .var _
  have tD : ∀ {st}, IsSteiner st → ∀ e ∈ linkDynE st parE, TameOn P ∅ e := fun hst => tame_linkDynE hst (fun k _ => .var _) hμ fun ρ h => h
  have tL : ∀ {st}, IsSteiner st → ∀ e ∈ L st, TameOn P ∅ e := by
    intro st hst e he
    rcases List.mem_append.1 he with he | he
    · rcases List.mem_append.1 he with he | he
      · exact tD hst e he
      · exact tame_linkDynE hst (fun k hk => tR hst _ (nthE_mem (length_linkRegE _ _) hk)) hμ (fun ρ h => h) e he
    · exact tame_linkRegE hst (fun k hk => tD hst _ (nthE_mem (length_linkDynE _ _) hk)) e he
  have fL : ∀ {st}, IsSteiner st → ∀ e ∈ L st, fv e ⊆ parVars := by
    intro st hst e he
    rcases List.mem_append.1 he with he | he
    · rcases List.mem_append.1 he with he | he
      · exact fv_linkDynE hst e he
      · refine closed_linkDynE (closed_fv _) hst (fun k hk => fv_linkRegE hst _ (nthE_mem (length_linkRegE _ _) hk)) (fun k hk => ?_) e he
        exact Set.union_subset (fv_linkRegE hst _ (nthE_mem (length_linkRegE _ _) hk)) (fv_linkRegE hst _ (nthE_mem (length_linkRegE _ _) (by decide)))
    · exact closed_linkRegE (closed_fv _) hst (fun k hk => fv_linkDynE hst _ (nthE_mem (length_linkDynE _ _) hk)) e he
  obtain ⟨K, u₀, hK, hu, H⟩ := tame_all (P := P) (S := ∅) (le_max_right b 0) (L steinerGenE ++ L steinerWrapE) fun e he => by
    rcases List.mem_append.1 he with he | he
    · exact tL (.inl rfl) e he
    · exact tL (.inr rfl) e he
  refine ⟨K, u₀, hK, hu, fun st hst p hp hm u h0 h1 => ?_⟩
  have key : ∀ e ∈ L st, ∀ v, Rounded u (parEnv p) e v → |v - eval (parEnv p) e| ≤ K * u := fun e he v hv => by
    refine H e (by rcases hst with rfl | rfl <;> simp only [List.mem_append, he, true_or, or_true]) (parEnv p) hm (fun v hv => ?_) u h0 h1 v hv
    obtain ⟨j, hj, rfl⟩ := fL hst e he hv
    exact (hp j hj).trans (le_max_left _ _)
  have h0' : p 0 ≠ 0 := fun h => by
    rw [h, abs_zero] at hm
    exact absurd hm (not_le.2 hμ)
  refine ⟨fun k hk v hv => ?_, fun w hw k hk v hv => ?_, fun w hw k hk v hv => ?_⟩
  · have := key _ (List.mem_append_left _ (List.mem_append_left _ (nthE_mem (length_linkDynE st parE) hk))) v hv
    rwa [eval_linkDynE hst _ hk] at this
  · have hs := hv.subst (ρ := parEnv p) (σ := fun x => nthE (linkRegE st parE) x.idx) fun x hx => by
      obtain ⟨j, hj, rfl⟩ := fv_linkDynE hst _ (nthE_mem (length_linkDynE _ _) hk) hx
      exact hw j hj
    rw [subst_linkDynE hst _ hk] at hs
    have := key _ (List.mem_append_left _ (List.mem_append_right _ (nthE_mem (length_linkDynE st _) hk))) v hs
    rw [eval_linkDynE hst _ hk] at this
    rw [← invPar_linPar h0' hk]
    refine le_of_eq_of_le ?_ this
    congr 2
    have e : ∀ j < 10, linParOf p j = eval (parEnv p) (nthE (linkRegE st parE) j) := fun j hj => (eval_linkRegE (p := parE) hst (parEnv p) hj).symm
    simp only [invPar, e 0 (by decide), e 1 (by decide), e 2 (by decide), e 3 (by decide), e 4 (by decide), e 5 (by decide), e 6 (by decide), e 7 (by decide),
      e 8 (by decide), e 9 (by decide)]
  · have hs := hv.subst (ρ := parEnv p) (σ := fun x => nthE (linkDynE st parE) x.idx) fun x hx => by
      obtain ⟨j, hj, rfl⟩ := fv_linkRegE hst _ (nthE_mem (length_linkRegE _ _) hk) hx
      exact hw j hj
    rw [subst_linkRegE hst _ hk] at hs
    have := key _ (List.mem_append_right _ (nthE_mem (length_linkRegE st _) hk)) v hs
    rw [eval_linkRegE hst _ hk] at this
    rw [← linPar_invPar h0' hk]
    refine le_of_eq_of_le ?_ this
    congr 2
    have e : ∀ j < 10, invPar p j = eval (parEnv p) (nthE (linkDynE st parE) j) := fun j hj => (eval_linkDynE (p := parE) hst (parEnv p) hj).symm
    simp only [linParOf, e 0 (by decide), e 1 (by decide), e 2 (by decide), e 3 (by decide), e 4 (by decide), e 5 (by decide), e 6 (by decide), e 7 (by decide),
      e 8 (by decide), e 9 (by decide)]

/-! ## Vectors -/

theorem seg_getD {n : ℕ} {p : ℕ → ℝ} {i : ℕ} (hi : i < n) {k : ℕ} (hk : k < 10) : (seg (vecN (10 * n) p) i k).getD 0 = p (10 * i + k) := by
  rw [seg_vecN (by omega)]
  rfl

theorem link_vecN (m : Machine u) {f : (ℕ → Expr) → List Expr} (hf : (f parE).length = 10) {n : ℕ} {p : ℕ → ℝ} {i : ℕ} (hi : i < n) :
    m.link f (seg (vecN (10 * n) p) i) = (List.range 10).map fun k => some (m.ev (fun v => (seg (vecN (10 * n) p) i v.idx).getD 0) (nthE (f parE) k)) := by
  rw [Machine.link, if_pos fun k hk => by rw [seg_vecN (by omega)]; exact Option.some_ne_none _, map_nthE hf]

/-- The values computed on a machine. -/
def computed (m : Machine u) (f : (ℕ → Expr) → List Expr) (n : ℕ) (p : ℕ → ℝ) (j : ℕ) : ℝ :=
  m.ev (fun v => (seg (vecN (10 * n) p) (j / 10) v.idx).getD 0) (nthE (f parE) (j % 10))

theorem computed_rounded (m : Machine u) {f : (ℕ → Expr) → List Expr} (hf : (f parE).length = 10) (hv : ∀ e ∈ f parE, fv e ⊆ parVars) {n : ℕ} (p : ℕ → ℝ)
    {i : ℕ} (hi : i < n) {k : ℕ} (hk : k < 10) : Rounded u (parEnv fun k => p (10 * i + k)) (nthE (f parE) k) (computed m f n p (10 * i + k)) := by
  have h := m.rounds (fun v => (seg (vecN (10 * n) p) i v.idx).getD 0) (nthE (f parE) k)
  rw [computed, show (10 * i + k) / 10 = i by omega, show (10 * i + k) % 10 = k by omega]
  have hs := h.subst (ρ := parEnv fun k => p (10 * i + k)) (σ := .var) fun x hx => by
    obtain ⟨j, hj, rfl⟩ := hv _ (nthE_mem hf hk) hx
    show Rounded u _ (.var ⟨"par", j⟩) ((seg (vecN (10 * n) p) i j).getD 0)
    rw [seg_getD hi hj]
    exact .var _
  rwa [subst_var] at hs

theorem regOn_vecN (m : Machine u) (st) (n : ℕ) (p : ℕ → ℝ) :
    ((List.range n).flatMap fun i => m.link (linkRegE st) (seg (vecN (10 * n) p) i)) = vecN (10 * n) (computed m (linkRegE st) n p) := by
  rw [vecN.eq_1 (10 * n) (computed m (linkRegE st) n p), map_range_ten]
  refine List.flatMap_congr fun i hi => ?_
  rw [link_vecN m (length_linkRegE st parE) (List.mem_range.1 hi)]
  refine List.map_congr_left fun k hk => ?_
  rw [List.mem_range] at hk
  rw [computed, show (10 * i + k) / 10 = i by omega, show (10 * i + k) % 10 = k by omega]

theorem dynOn_vecN (m : Machine u) (st) (n : ℕ) {p : ℕ → ℝ} (h0 : ∀ i < n, p (10 * i) ≠ 0) :
    ((List.range n).flatMap fun i => if seg (vecN (10 * n) p) i 0 = some 0 then List.replicate 10 none else m.link (linkDynE st) (seg (vecN (10 * n) p) i)) =
      vecN (10 * n) (computed m (linkDynE st) n p) := by
  rw [vecN.eq_1 (10 * n) (computed m (linkDynE st) n p), map_range_ten]
  refine List.flatMap_congr fun i hi => ?_
  have hi := List.mem_range.1 hi
  rw [if_neg, link_vecN m (length_linkDynE st parE) hi]
  · refine List.map_congr_left fun k hk => ?_
    rw [List.mem_range] at hk
    rw [computed, show (10 * i + k) / 10 = i by omega, show (10 * i + k) % 10 = k by omega]
  · rw [seg_vecN (by omega)]
    exact fun h => h0 i hi (Option.some.inj h)

end

end Thunder
