import Verif.Lemmas.KinValues

/-!
# Time derivatives along trajectories, and which symbols the Jacobians contain
-/

set_option linter.unusedSectionVars false

open scoped Classical

namespace Thunder

noncomputable section

theorem over_hatX {S : Set Var} {v : SX} (h : SX.Over S v) : SX.Over S (hatX v) := by
  have := Base.over_mat33 (S := S) (a := .const 0) (b := Expr.sneg (v.e 2 0)) (c := v.e 1 0) (d := v.e 2 0) (e := .const 0)
    (f := Expr.sneg (v.e 0 0)) (g := Expr.sneg (v.e 1 0)) (h := v.e 0 0) (i := .const 0)
    (by simp) ((Expr.fv_sneg _).trans (h _ _)) (h _ _) (h _ _) (by simp) ((Expr.fv_sneg _).trans (h _ _))
    ((Expr.fv_sneg _).trans (h _ _)) (h _ _) (by simp)
  exact this

/-- Symbols named in a list. -/
def names (l : List String) : Set Var := {v | v.name ∈ l}

theorem names_mono {l l' : List String} (h : ∀ x ∈ l, x ∈ l') : names l ⊆ names l' := fun v hv => h v.name hv

theorem ParVec.over_names {name : String} {k : ℕ} {A : SX} (h : ParVec name k A) {l : List String} (hl : name ∈ l) :
    SX.Over (names l) A := h.over.mono fun v hv => by
  change v.name ∈ l
  rw [hv.1]; exact hl

theorem over_sym_names {name : String} {n : ℕ} {l : List String} (hl : name ∈ l) : SX.Over (names l) (SX.sym name n) :=
  SX.Over.sym _ _ fun _ _ => hl

/-- A value does not change when a symbol vector that does not occur is reassigned. -/
theorem val_setV_of_not_mem {A : SX} {l : List String} (hA : SX.Over (names l) A) {name : String} (h : name ∉ l) (ρ : Var → ℝ)
    {k : ℕ} (x : Fin k → ℝ) (m n : ℕ) : SX.val (setV name ρ x) A m n = SX.val ρ A m n := by
  ext i j
  exact Expr.eval_congr fun v hv => setV_ne fun h' => h (h' ▸ hA _ _ hv)

theorem dval_dirV_of_not_mem {A : SX} {l : List String} (hA : SX.Over (names l) A) {name : String} (h : name ∉ l) (ρ : Var → ℝ)
    {k : ℕ} (x : Fin k → ℝ) (m n : ℕ) : SX.dval ρ (dirV name x) A m n = 0 :=
  SX.dval_eq_zero hA (fun v hv => by rw [dirV, setV_ne]; intro h'; exact h (h' ▸ hv)) m n

variable [Fl]

theorem over_dhTemplate {S : Set Var} {row : SX} {q : Expr} {ty : String} (h : SX.Over S row) (hq : q.fv ⊆ S) :
    SX.Over S (dhTemplate row q ty) := by
  refine Base.over_homog ((Base.over_rotX (h _ _)).mtimes (Base.over_rotZ ?_))
    (((Base.over_rotX (h _ _)).mtimes (Base.over_col3 (a := .const 0) (b := .const 0) (by simp) (by simp) ?_)).add
      (Base.over_col3 (b := .const 0) (c := .const 0) (h _ _) (by simp) (by simp)))
  · split_ifs
    · exact h _ _
    · exact (Expr.fv_sadd _ _).trans (Set.union_subset (h _ _) hq)
  · split_ifs
    · exact (Expr.fv_sadd _ _).trans (Set.union_subset (h _ _) hq)
    · exact h _ _

namespace Base

variable {B : Base} (hB : B.WF)

/-- Generic symbol bound for the chain: enough that each ingredient is over `S`. -/
theorem over_T0_gen {S : Set Var} (hw : SX.Over S B.w2l) (hd : SX.Over S B.dh) (k : ℕ) (hq : ∀ i < k, (B.q.e i 0).fv ⊆ S) :
    SX.Over S (B.T0 k) := by
  induction k with
  | zero => exact over_getTransform hw
  | succ k ih =>
    exact (ih fun i hi => hq i (by omega)).mtimes (over_dhTemplate (hd.block _ _ _ _) (hq k (by omega)))

include hB

theorem over_T0_causal (i : ℕ) : SX.Over {v | v.name = "q" → v.idx < i} (B.T0 i) := by
  refine over_T0_gen ?_ ?_ i fun k hk => ?_
  · refine hB.w2l.over.mono fun v hv => ?_
    rintro h
    rw [hv.1] at h
    exact absurd h (by decide)
  · refine hB.dh.over.mono fun v hv => ?_
    rintro h
    rw [hv.1] at h
    exact absurd h (by decide)
  · rw [hB.q]
    simp only [SX.sym]
    split_ifs <;> simp [hk]

variable {l : List String}

theorem over_T0 (hq : "q" ∈ l) (hd : "DHtable" ∈ l) (hw : "world2L0" ∈ l) (i : ℕ) : SX.Over (names l) (B.T0 i) :=
  over_T0_gen (hB.w2l.over_names hw) (hB.dh.over_names hd) i fun k _ => by rw [hB.q]; exact over_sym_names hq _ _

theorem over_T0ee (hq : "q" ∈ l) (hd : "DHtable" ∈ l) (hw : "world2L0" ∈ l) (he : "Ln2EE" ∈ l) : SX.Over (names l) B.T0ee :=
  (over_T0 hB hq hd hw _).mtimes (over_getTransform (hB.ee.over_names he))

omit hB in
theorem over_posCol {S : Set Var} (hT : ∀ i, SX.Over S (B.T0 i)) {O : SX} (hO : SX.Over S O) (j : ℕ) :
    SX.Over S (B.posCol O j) := by
  unfold posCol
  split_ifs
  · exact (hT _).block _ _ _ _
  · exact (over_hatX ((hT _).block _ _ _ _)).mtimes (hO.sub ((hT _).block _ _ _ _))

omit hB in
theorem over_orCol {S : Set Var} (hT : ∀ i, SX.Over S (B.T0 i)) (j : ℕ) : SX.Over S (B.orCol j) := by
  unfold orCol
  split_ifs
  · exact SX.Over.zeros _ _
  · exact (hT _).block _ _ _ _

omit hB in
theorem over_posJac {S : Set Var} (hT : ∀ i, SX.Over S (B.T0 i)) {O : SX} (hO : SX.Over S O) (im : ℕ) :
    SX.Over S (B.posJac O im) := by
  intro a j
  simp only [posJac]
  split_ifs
  · exact over_posCol hT hO _ _ _
  · simp

omit hB in
theorem over_orJac {S : Set Var} (hT : ∀ i, SX.Over S (B.T0 i)) (im : ℕ) : SX.Over S (B.orJac im) := by
  intro a j
  simp only [orJac]
  split_ifs
  · exact over_orCol hT _ _ _
  · simp

omit hB in
/-- `J_{i+1}` for `i < n` does not use the tool offset. -/
theorem over_J_lt {S : Set Var} (hT : ∀ i, SX.Over S (B.T0 i)) {i : ℕ} (hi : i ≠ B.n) : SX.Over S (B.J i) := by
  refine SX.Over.vcat ?_ (over_orJac hT _)
  rw [Jv, if_neg hi]
  exact over_posJac hT ((hT _).block _ _ _ _) _

omit hB in
theorem over_J {S : Set Var} (hT : ∀ i, SX.Over S (B.T0 i)) (he : SX.Over S B.ee) (i : ℕ) : SX.Over S (B.J i) := by
  by_cases hi : i = B.n
  · refine SX.Over.vcat ?_ (over_orJac hT _)
    rw [Jv, if_pos hi]
    exact (over_posJac hT ((hT _).block _ _ _ _) _).sub (((((hT _).block _ _ _ _).mtimes
      (over_hatX ((over_getTransform he).block _ _ _ _))).mtimes ((hT _).block _ _ _ _).transp).mtimes (over_orJac hT _))
  · exact over_J_lt hT hi

theorem over_Jee (hq : "q" ∈ l) (hd : "DHtable" ∈ l) (hw : "world2L0" ∈ l) (he : "Ln2EE" ∈ l) : SX.Over (names l) B.Jee :=
  over_J (over_T0 hB hq hd hw) (hB.ee.over_names he) _

theorem over_Jee_q : SX.Over (names ["q", "DHtable", "world2L0", "Ln2EE"]) B.Jee :=
  over_Jee hB (by decide) (by decide) (by decide) (by decide)

theorem over_JeeDot_q : SX.Over (names ["q", "dq", "DHtable", "world2L0", "Ln2EE"]) B.JeeDot :=
  (over_Jee hB (by decide) (by decide) (by decide) (by decide)).jtimes (by rw [hB.dq]; exact over_sym_names (by decide)) _

theorem vec_setV_sym (name : String) (ρ : Var → ℝ) {n : ℕ} (x : Fin n → ℝ) :
    SX.vec (setV name ρ x) (SX.sym name n) n = x := by
  rw [SX.vec_sym]; funext i; exact setV_self _ _ _ _

/-- First time derivative: `jtimes(A, q, dq)` for `A` depending on `q` and parameters only. -/
theorem hasDerivAt_jtimes₁ {A : SX} (hs : ∀ S, SX.Smooth S A) {l : List String} (ho : SX.Over (names l) A)
    (ρ : Var → ℝ) {q : ℝ → Fin B.n → ℝ} {v : Fin B.n → ℝ} {t : ℝ} (hq : ∀ i, HasDerivAt (fun s => q s i) (v i) t)
    (m k : ℕ) (a : Fin m) (b : Fin k) (hl : "dq" ∉ l := by decide) :
    HasDerivAt (fun s => SX.val (setV "q" ρ (q s)) A m k a b)
      (SX.val (setV "q" (setV "dq" ρ v) (q t)) (SX.jtimes A B.q B.dq) m k a b) t := by
  rw [hB.q, hB.dq, SX.val_jtimes, setV_comm (a := "q") (b := "dq") (by decide), vec_setV_sym hB]
  have h := SX.hasDerivAt_val_curve hs (hasDerivAt_setV (name := "q") (hasDerivAt_fix (setV "dq" ρ v) t) hq) m k a b
  simp only [fun s => setV_comm (a := "q") (b := "dq") (by decide) ρ (q s) v, val_setV_of_not_mem ho hl] at h
  exact h

/-- Second time derivative: `jtimes(A, q, dq) + jtimes(A, dq, ddq)` for `A` depending on `q`, `dq` and parameters. -/
theorem hasDerivAt_jtimes₂ {A : SX} (hs : ∀ S, SX.Smooth S A) {l : List String} (ho : SX.Over (names l) A)
    (ρ : Var → ℝ) {q dq : ℝ → Fin B.n → ℝ} {w : Fin B.n → ℝ} {t : ℝ} (hq : ∀ i, HasDerivAt (fun s => q s i) (dq t i) t)
    (hdq : ∀ i, HasDerivAt (fun s => dq s i) (w i) t)
    (m k : ℕ) (a : Fin m) (b : Fin k) (hl : "ddq" ∉ l := by decide) :
    HasDerivAt (fun s => SX.val (setV "q" (setV "dq" ρ (dq s)) (q s)) A m k a b)
      (SX.val (setV "q" (setV "dq" (setV "ddq" ρ w) (dq t)) (q t))
        (SX.add (SX.jtimes A B.q B.dq) (SX.jtimes A B.dq B.ddq)) m k a b) t := by
  have c1 : ∀ (ρ' : Var → ℝ) (x y : Fin B.n → ℝ), setV "q" (setV "dq" ρ' y) x = setV "dq" (setV "q" ρ' x) y :=
    fun ρ' x y => setV_comm (by decide) ρ' x y
  have c2 : ∀ (ρ' : Var → ℝ) (x y : Fin B.n → ℝ), setV "q" (setV "ddq" ρ' y) x = setV "ddq" (setV "q" ρ' x) y :=
    fun ρ' x y => setV_comm (by decide) ρ' x y
  have c3 : ∀ (ρ' : Var → ℝ) (x y : Fin B.n → ℝ), setV "dq" (setV "ddq" ρ' y) x = setV "ddq" (setV "dq" ρ' x) y :=
    fun ρ' x y => setV_comm (by decide) ρ' x y
  rw [SX.val_add, hB.q, hB.dq, hB.ddq, SX.val_jtimes, SX.val_jtimes]
  have e1 : SX.vec (setV "q" (setV "dq" (setV "ddq" ρ w) (dq t)) (q t)) (SX.sym "dq" B.n) B.n = dq t := by
    rw [c1, vec_setV_sym hB]
  have e2 : SX.vec (setV "q" (setV "dq" (setV "ddq" ρ w) (dq t)) (q t)) (SX.sym "ddq" B.n) B.n = w := by
    rw [c3, c2, vec_setV_sym hB]
  rw [e1, e2]
  have h := SX.hasDerivAt_val_curve hs (hasDerivAt_setV (name := "q")
    (hasDerivAt_setV (name := "dq") (hasDerivAt_fix (setV "ddq" ρ w) t) hdq) hq) m k a b
  rw [setV_dir (name := "q") _ (dq t) (fun v hv => by rw [setV_ne (by rw [hv]; decide)])] at h
  simp only [fun s => c3 ρ (dq s) w, fun s ρ' => c2 ρ' (q s) w, val_setV_of_not_mem ho hl, SX.dval_apply,
    Expr.dir_add] at h
  simp only [c3, c2]
  exact h

/-- Third order: `A` depending on `q`, `dq`, `ddq` and parameters. -/
theorem hasDerivAt_jtimes₃ {A : SX} (hs : ∀ S, SX.Smooth S A) {l : List String} (ho : SX.Over (names l) A)
    (ρ : Var → ℝ) {q dq ddq : ℝ → Fin B.n → ℝ} {w : Fin B.n → ℝ} {t : ℝ} (hq : ∀ i, HasDerivAt (fun s => q s i) (dq t i) t)
    (hdq : ∀ i, HasDerivAt (fun s => dq s i) (ddq t i) t) (hddq : ∀ i, HasDerivAt (fun s => ddq s i) (w i) t)
    (m k : ℕ) (a : Fin m) (b : Fin k) (hl : "d3q" ∉ l := by decide) :
    HasDerivAt (fun s => SX.val (setV "q" (setV "dq" (setV "ddq" ρ (ddq s)) (dq s)) (q s)) A m k a b)
      (SX.val (setV "q" (setV "dq" (setV "ddq" (setV "d3q" ρ w) (ddq t)) (dq t)) (q t))
        (SX.add (SX.add (SX.jtimes A B.q B.dq) (SX.jtimes A B.dq B.ddq)) (SX.jtimes A B.ddq B.d3q)) m k a b) t := by
  have c1 : ∀ (ρ' : Var → ℝ) (x y : Fin B.n → ℝ), setV "q" (setV "dq" ρ' y) x = setV "dq" (setV "q" ρ' x) y :=
    fun ρ' x y => setV_comm (by decide) ρ' x y
  have c2 : ∀ (ρ' : Var → ℝ) (x y : Fin B.n → ℝ), setV "q" (setV "ddq" ρ' y) x = setV "ddq" (setV "q" ρ' x) y :=
    fun ρ' x y => setV_comm (by decide) ρ' x y
  have c3 : ∀ (ρ' : Var → ℝ) (x y : Fin B.n → ℝ), setV "dq" (setV "ddq" ρ' y) x = setV "ddq" (setV "dq" ρ' x) y :=
    fun ρ' x y => setV_comm (by decide) ρ' x y
  have c4 : ∀ (ρ' : Var → ℝ) (x y : Fin B.n → ℝ), setV "q" (setV "d3q" ρ' y) x = setV "d3q" (setV "q" ρ' x) y :=
    fun ρ' x y => setV_comm (by decide) ρ' x y
  have c5 : ∀ (ρ' : Var → ℝ) (x y : Fin B.n → ℝ), setV "dq" (setV "d3q" ρ' y) x = setV "d3q" (setV "dq" ρ' x) y :=
    fun ρ' x y => setV_comm (by decide) ρ' x y
  have c6 : ∀ (ρ' : Var → ℝ) (x y : Fin B.n → ℝ), setV "ddq" (setV "d3q" ρ' y) x = setV "d3q" (setV "ddq" ρ' x) y :=
    fun ρ' x y => setV_comm (by decide) ρ' x y
  rw [SX.val_add, SX.val_add, hB.q, hB.dq, hB.ddq, hB.d3q, SX.val_jtimes, SX.val_jtimes, SX.val_jtimes]
  set σ := setV "q" (setV "dq" (setV "ddq" (setV "d3q" ρ w) (ddq t)) (dq t)) (q t) with hσ
  have e1 : SX.vec σ (SX.sym "dq" B.n) B.n = dq t := by
    rw [hσ, c1, vec_setV_sym hB]
  have e2 : SX.vec σ (SX.sym "ddq" B.n) B.n = ddq t := by
    rw [hσ, c3, c2, vec_setV_sym hB]
  have e3 : SX.vec σ (SX.sym "d3q" B.n) B.n = w := by
    rw [hσ, c6, c5, c4, vec_setV_sym hB]
  rw [e1, e2, e3]
  have h := SX.hasDerivAt_val_curve hs (hasDerivAt_setV (name := "q")
    (hasDerivAt_setV (name := "dq") (hasDerivAt_setV (name := "ddq") (hasDerivAt_fix (setV "d3q" ρ w) t) hddq) hdq) hq) m k a b
  rw [setV_dir (name := "q") _ (dq t) (fun v hv => by
      rw [setV_ne (by rw [hv]; decide), setV_ne (by rw [hv]; decide)]),
    setV_dir (name := "dq") _ (ddq t) (fun v hv => by rw [setV_ne (by rw [hv]; decide)])] at h
  simp only [c6, c5, c4, val_setV_of_not_mem ho hl, SX.dval_apply,
    Expr.dir_add] at h
  have hσ' : σ = setV "d3q" (setV "q" (setV "dq" (setV "ddq" ρ (ddq t)) (dq t)) (q t)) w := by
    rw [hσ, c6, c5, c4]
  rw [← hσ'] at h
  rw [Matrix.add_apply, Matrix.add_apply, add_assoc]
  exact h

end Base

end

end Thunder
