import Verif.Lemmas.RegLin
import Verif.Props.Friction

/-!
# Properties C24–C26: regressors obtained by differentiating with respect to the symbolic parameters
-/

open scoped Classical
open Matrix

namespace Thunder

noncomputable section

namespace Ex

theorem parX_parSym (name : String) (l : List (Option ℝ)) :
    ParSym name l.length (parX name l) (l.map fun o => if o.isNone then 1 else 0) where
  toParVec := parX_parVec name l
  sym := by
    intro i hi h
    simp only [parX, if_true]
    rw [List.getElem?_eq_getElem hi]
    rw [List.getD_eq_getElem?_getD, List.getElem?_map, List.getElem?_eq_getElem hi] at h
    rcases hl : l[i] with _ | c
    · rfl
    · rw [hl] at h; simp at h
  num := by
    intro i hi h
    simp only [parX, if_true]
    rw [List.getElem?_eq_getElem hi]
    rw [List.getD_eq_getElem?_getD, List.getElem?_map, List.getElem?_eq_getElem hi] at h
    rcases hl : l[i] with _ | c
    · rw [hl] at h; simp at h
    · exact ⟨c, rfl⟩

theorem symDl : ParSym "par_Dl" 3 B.dl [1, 0, 1] := by
  have := parX_parSym "par_Dl" [none, some 0.1, none]
  simpa [B] using this
theorem symK : ParSym "par_K" 2 B.parK [1, 0] := by
  have := parX_parSym "par_K" [none, some 0.5]
  simpa [B] using this
theorem symD : ParSym "par_D" 2 B.parD [0, 1] := by
  have := parX_parSym "par_D" [some 0.2, none]
  simpa [B] using this
theorem symDm : ParSym "par_Dm" 1 B.parDm [1] := by
  have := parX_parSym "par_Dm" [none]
  simpa [B] using this
theorem symMm : ParSym "par_Mm" 1 B.parMm [1] := by
  have := parX_parSym "par_Mm" [none]
  simpa [B] using this

end Ex

variable {B : Base}

/-! ## C24 -/

/-- C24: `dl = reg_dl · (symbolic par_Dl) + (dl with the symbolic coefficients at zero)`, and `reg_dl` does not depend on the
coefficients. -/
theorem C24_exact (hB : B.WF) {order : ℕ} {flags : List ℤ} (hF : ParSym "par_Dl" (B.n * order) B.dl flags) (ρ : Var → ℝ) :
    (SX.vec ρ (B.dlFun order) B.n =
      SX.val ρ (B.regDl order flags) B.n (Spec.symIdx flags (B.n * order)).length *ᵥ
        (fun c => ρ ⟨"par_Dl", (Spec.symIdx flags (B.n * order))[c]⟩) +
      SX.vec (setV "par_Dl" ρ (0 : Fin (B.n * order) → ℝ)) (B.dlFun order) B.n) ∧
    ∀ p : Fin (B.n * order) → ℝ,
      SX.val (setV "par_Dl" ρ p) (B.regDl order flags) B.n (Spec.symIdx flags (B.n * order)).length =
      SX.val ρ (B.regDl order flags) B.n (Spec.symIdx flags (B.n * order)).length := by
  refine jacobian_exact (B.dlFun order) (n := B.n) rfl hF (fun r hr => ?_) ρ
  simp only [Base.dlFun, hr, and_self, if_true]
  refine linExact_fricLaw hF (fun w hw => ?_) _ _
  rw [hB.dq] at hw
  rw [fv_sym_name w hw]; decide

/-- C24: with all coefficients symbolic, `dl = reg_dl · par_Dl`. -/
theorem C24_full (hB : B.WF) {order : ℕ} {flags : List ℤ} (hF : ParSym "par_Dl" (B.n * order) B.dl flags)
    (hall : ∀ i < B.n * order, flags.getD i 0 ≠ 0) (ρ : Var → ℝ) :
    SX.vec ρ (B.dlFun order) B.n =
      SX.val ρ (B.regDl order flags) B.n (B.n * order) *ᵥ (fun c => ρ ⟨"par_Dl", c⟩) := by
  have h := (C24_exact hB hF ρ).1
  have h0 : SX.vec (setV "par_Dl" ρ (0 : Fin (B.n * order) → ℝ)) (B.dlFun order) B.n = 0 := by
    ext i
    simp only [SX.vec_apply, Base.dlFun, i.2, and_self, if_true, eval_fricLaw]
    refine Finset.sum_eq_zero fun j hj => ?_
    have hlt := Base.coef_lt i.2 (Finset.mem_range.mp hj)
    change Expr.eval _ (B.dl.e (i * order + j) 0) * _ = 0
    rw [hF.sym _ hlt (hall _ hlt), Expr.eval_var, setV_self' hlt, Pi.zero_apply, zero_mul]
  have hL := symIdx_all hall
  rw [h0, add_zero] at h
  rw [h]
  ext i
  simp only [mulVec, dotProduct, SX.val_apply]
  have hlen : (Spec.symIdx flags (B.n * order)).length = B.n * order := by rw [hL, List.length_range]
  rw [← (finCongr hlen).sum_comp]
  refine Finset.sum_congr rfl fun c _ => ?_
  have : (Spec.symIdx flags (B.n * order))[(c : ℕ)] = c := by simp [hL]
  simp only [finCongr_apply, Fin.val_cast]
  change _ * ρ ⟨"par_Dl", (Spec.symIdx flags (B.n * order))[(c : ℕ)]⟩ = _
  rw [this]

example (ρ : Var → ℝ) := C24_exact (order := 1) Ex.wf Ex.symDl ρ

/-- Example robot: two symbolic coefficients; the numeric one (0.1, joint 2) is the constant part. -/
example : Spec.symIdx [1, 0, 1] 3 = [0, 2] := by simp [Spec.symIdx, List.range, List.range.loop]

/-- All coefficients symbolic: hypotheses of `C24_full`. -/
example (ρ : Var → ℝ) : ∃ B : Base, B.n = 3 ∧ SX.vec ρ (B.dlFun 2) B.n =
    SX.val ρ (B.regDl 2 [1, 1, 1, 1, 1, 1]) B.n (B.n * 2) *ᵥ (fun c => ρ ⟨"par_Dl", c⟩) := by
  refine ⟨{ Ex.B with dl := Ex.parX "par_Dl" [none, none, none, none, none, none] }, rfl, ?_⟩
  have h6 := Ex.parX_parSym "par_Dl" [none, none, none, none, none, none]
  refine C24_full ?_ (by simpa [Ex.B] using h6) ?_ ρ
  · exact { Ex.wf with }
  · intro i hi
    have : i < 6 := hi
    have : i = 0 ∨ i = 1 ∨ i = 2 ∨ i = 3 ∨ i = 4 ∨ i = 5 := by omega
    rcases this with rfl | rfl | rfl | rfl | rfl | rfl <;> decide

/-! ## C25 -/

variable {m kord dord dmord : ℕ}

/-- C25 for `k`/`reg_k`. -/
theorem C25_k (hB : B.WF) (hE : B.ElasticWF m kord dord dmord) {flags : List ℤ}
    (hF : ParSym "par_K" (m * kord) B.parK flags) (ρ : Var → ℝ) :
    (SX.vec ρ (B.kFun m kord) m =
      SX.val ρ (B.regK m kord flags) m (Spec.symIdx flags (m * kord)).length *ᵥ
        (fun c => ρ ⟨"par_K", (Spec.symIdx flags (m * kord))[c]⟩) +
      SX.vec (setV "par_K" ρ (0 : Fin (m * kord) → ℝ)) (B.kFun m kord) m) ∧
    ∀ p : Fin (m * kord) → ℝ,
      SX.val (setV "par_K" ρ p) (B.regK m kord flags) m (Spec.symIdx flags (m * kord)).length =
      SX.val ρ (B.regK m kord flags) m (Spec.symIdx flags (m * kord)).length := by
  refine jacobian_exact (B.kFun m kord) (n := m) rfl hF (fun r hr => ?_) ρ
  simp only [Base.kFun, hr, and_self, if_true]
  refine linExact_oddLaw hF ?_ _ _
  rw [hB.q, hE.x]
  exact fv_ssub_names fv_sym_name fv_sym_name (by decide) (by decide)

/-- C25 for `d`/`reg_d`. -/
theorem C25_d (hB : B.WF) (hE : B.ElasticWF m kord dord dmord) {flags : List ℤ}
    (hF : ParSym "par_D" (m * dord) B.parD flags) (ρ : Var → ℝ) :
    (SX.vec ρ (B.dFun m dord) m =
      SX.val ρ (B.regD m dord flags) m (Spec.symIdx flags (m * dord)).length *ᵥ
        (fun c => ρ ⟨"par_D", (Spec.symIdx flags (m * dord))[c]⟩) +
      SX.vec (setV "par_D" ρ (0 : Fin (m * dord) → ℝ)) (B.dFun m dord) m) ∧
    ∀ p : Fin (m * dord) → ℝ,
      SX.val (setV "par_D" ρ p) (B.regD m dord flags) m (Spec.symIdx flags (m * dord)).length =
      SX.val ρ (B.regD m dord flags) m (Spec.symIdx flags (m * dord)).length := by
  refine jacobian_exact (B.dFun m dord) (n := m) rfl hF (fun r hr => ?_) ρ
  simp only [Base.dFun, hr, and_self, if_true]
  refine linExact_fricLaw hF ?_ _ _
  rw [hB.dq, hE.dx]
  exact fv_ssub_names fv_sym_name fv_sym_name (by decide) (by decide)

/-- C25 for `dm`/`reg_dm`. -/
theorem C25_dm (hE : B.ElasticWF m kord dord dmord) {flags : List ℤ}
    (hF : ParSym "par_Dm" (m * dmord) B.parDm flags) (ρ : Var → ℝ) :
    (SX.vec ρ (B.dmFun m dmord) m =
      SX.val ρ (B.regDm m dmord flags) m (Spec.symIdx flags (m * dmord)).length *ᵥ
        (fun c => ρ ⟨"par_Dm", (Spec.symIdx flags (m * dmord))[c]⟩) +
      SX.vec (setV "par_Dm" ρ (0 : Fin (m * dmord) → ℝ)) (B.dmFun m dmord) m) ∧
    ∀ p : Fin (m * dmord) → ℝ,
      SX.val (setV "par_Dm" ρ p) (B.regDm m dmord flags) m (Spec.symIdx flags (m * dmord)).length =
      SX.val ρ (B.regDm m dmord flags) m (Spec.symIdx flags (m * dmord)).length := by
  refine jacobian_exact (B.dmFun m dmord) (n := m) rfl hF (fun r hr => ?_) ρ
  simp only [Base.dmFun, hr, and_self, if_true]
  refine linExact_fricLaw hF (fun w hw => ?_) _ _
  rw [hE.dx] at hw
  rw [fv_sym_name w hw]; decide

/-- C25 for `Mm·ddx`/`reg_Mm`; the left-hand side is the numeric product of the registered `Mm` and the motor acceleration. -/
theorem C25_Mm (hE : B.ElasticWF m kord dord dmord) {flags : List ℤ}
    (hF : ParSym "par_Mm" m B.parMm flags) (ρ : Var → ℝ) :
    (SX.val ρ (B.MmFun m) m m *ᵥ (fun e => ρ ⟨"ddx", e⟩) =
      SX.val ρ (B.regMm m flags) m (Spec.symIdx flags m).length *ᵥ (fun c => ρ ⟨"par_Mm", (Spec.symIdx flags m)[c]⟩) +
      SX.val (setV "par_Mm" ρ (0 : Fin m → ℝ)) (B.MmFun m) m m *ᵥ (fun e => ρ ⟨"ddx", e⟩)) ∧
    ∀ p : Fin m → ℝ,
      SX.val (setV "par_Mm" ρ p) (B.regMm m flags) m (Spec.symIdx flags m).length =
      SX.val ρ (B.regMm m flags) m (Spec.symIdx flags m).length := by
  have key := jacobian_exact (SX.mtimes (B.MmFun m) B.ddx) (n := m) rfl hF (fun r hr => ?_) ρ
  · refine ⟨?_, key.2⟩
    have h1 := key.1
    have hv : ∀ σ : Var → ℝ, SX.vec σ B.ddx m = fun e : Fin m => σ ⟨"ddx", e⟩ := fun σ => by rw [hE.ddx, SX.vec_sym]
    rw [SX.vec_mtimes ρ _ _ m m rfl, SX.vec_mtimes _ _ _ m m rfl, hv, hv] at h1
    exact h1
  · refine LinExact.sumN fun j _ => LinExact.smul_right ?_ fun w hw => ?_
    · simp only [Base.MmFun, diagPar]
      split_ifs
      · exact hF.linExact _
      · exact .const 0
    · rw [hE.ddx] at hw
      rw [fv_sym_name w hw]; decide

example (ρ : Var → ℝ) := C25_k Ex.wf Ex.elasticB Ex.symK ρ
example (ρ : Var → ℝ) := C25_d Ex.wf Ex.elasticB Ex.symD ρ
example (ρ : Var → ℝ) := C25_dm Ex.elasticB Ex.symDm ρ
example (ρ : Var → ℝ) := C25_Mm Ex.elasticB Ex.symMm ρ

/-! ## C26 -/

/-- The symbolic kinematic parameters in the order DH table, world2L0, Ln2EE. -/
def kinSymbols (n : ℕ) (fdh fw fe : List ℤ) : List Var :=
  (Spec.symIdx fdh (n * 4)).map (Var.mk "DHtable") ++ (Spec.symIdx fw 6).map (Var.mk "world2L0") ++
    (Spec.symIdx fe 6).map (Var.mk "Ln2EE")

theorem kinPar_eq {fdh fw fe : List ℤ} (hd : ParSym "DHtable" (B.n * 4) B.dh fdh) (hw : ParSym "world2L0" 6 B.w2l fw)
    (he : ParSym "Ln2EE" 6 B.ee fe) :
    Base.symbPar B.dh fdh ++ Base.symbPar B.w2l fw ++ Base.symbPar B.ee fe = (kinSymbols B.n fdh fw fe).map Expr.var := by
  have key : ∀ {nm : String} {k : ℕ} {A : SX} {f : List ℤ}, ParSym nm k A f →
      Base.symbPar A f = ((Spec.symIdx f k).map (Var.mk nm)).map Expr.var := by
    intro nm k A f h
    rw [Base.symbPar, h.rows, List.map_map]
    refine List.map_congr_left fun i hi => ?_
    obtain ⟨h1, h2⟩ := mem_symIdx.mp hi
    exact h.sym i h1 h2
  rw [key hd, key hw, key he, kinSymbols, List.map_append, List.map_append]

theorem kinSymbols_name {n : ℕ} {fdh fw fe : List ℤ} {v : Var} (h : v ∈ kinSymbols n fdh fw fe) :
    v.name ∈ ["DHtable", "world2L0", "Ln2EE"] := by
  simp only [kinSymbols, List.mem_append, List.mem_map] at h
  rcases h with (⟨_, _, rfl⟩ | ⟨_, _, rfl⟩) | ⟨_, _, rfl⟩ <;> simp

/-- Derivative columns of a matrix expression with respect to a list of symbols. -/
theorem eval_jacobian_symbols (ρ : Var → ℝ) (A : SX) (L : List Var) {r : ℕ} (hr : r < A.rows) (c : Fin L.length) :
    Expr.eval ρ ((SX.jacobian A (SX.ofList (L.map Expr.var))).e r c) = Expr.eval ρ (Expr.D L[c] (A.e r 0)) := by
  have h : (SX.ofList (L.map Expr.var)).e c 0 = .var L[c] := by
    simp [SX.ofList, List.getD_eq_getElem?_getD]
  rw [Expr.eval_D]
  simp only [SX.jacobian, Nat.mod_eq_of_lt hr, Nat.div_eq_of_lt hr]
  exact SX.eval_Dx ρ _ _ h

variable [Fl]

/-- C26: column `c` of `reg_Jdq` is the partial derivative of `J_ee·dq` with respect to the `c`-th symbolic kinematic parameter. -/
theorem C26_Jdq (hB : B.WF) {fdh fw fe : List ℤ} (hd : ParSym "DHtable" (B.n * 4) B.dh fdh)
    (hw : ParSym "world2L0" 6 B.w2l fw) (he : ParSym "Ln2EE" 6 B.ee fe) (ρ : Var → ℝ)
    (c : Fin (kinSymbols B.n fdh fw fe).length) (a : Fin 6) :
    HasDerivAt (fun t => (SX.val (Function.update ρ (kinSymbols B.n fdh fw fe)[c] t) B.Jee 6 B.n *ᵥ
        fun j => ρ ⟨"dq", j⟩) a)
      (SX.val ρ (B.regJdq fdh fw fe) 6 (kinSymbols B.n fdh fw fe).length a c) (ρ (kinSymbols B.n fdh fw fe)[c]) := by
  have hv := kinSymbols_name (List.getElem_mem c.2)
  have hs : Expr.Smooth {(kinSymbols B.n fdh fw fe)[c]} ((SX.mtimes B.Jee B.dq).e a 0) :=
    (Base.smooth_Jee hB).mtimes (Base.smooth_dq hB) _ _
  have h := Expr.hasDerivAt_D (ρ := ρ) hs
  rw [← eval_jacobian_symbols ρ (SX.mtimes B.Jee B.dq) _ (lt_of_lt_of_eq a.2 Base.Jee_rows.symm) c, ← kinPar_eq hd hw he] at h
  have e : (fun t => (SX.val (Function.update ρ (kinSymbols B.n fdh fw fe)[c] t) B.Jee 6 B.n *ᵥ fun j => ρ ⟨"dq", j⟩) a) =
      fun t => Expr.eval (Function.update ρ (kinSymbols B.n fdh fw fe)[c] t) ((SX.mtimes B.Jee B.dq).e a 0) := by
    funext t
    have h1 := congrFun (SX.vec_mtimes (Function.update ρ (kinSymbols B.n fdh fw fe)[c] t) B.Jee B.dq 6 B.n Base.Jee_cols) a
    rw [hB.dq, SX.vec_sym] at h1
    rw [hB.dq]
    refine Eq.trans ?_ h1.symm
    congr 2
    funext j
    rw [Function.update_of_ne]
    intro h'
    rw [Fin.getElem_fin] at h'
    rw [← h'] at hv
    simp at hv
  rw [e]; exact h

/-- C26: column `c` of `reg_JTw` is the partial derivative of `J_eeᵀ·w` with respect to the `c`-th symbolic kinematic parameter. -/
theorem C26_JTw (hB : B.WF) {fdh fw fe : List ℤ} (hd : ParSym "DHtable" (B.n * 4) B.dh fdh)
    (hw : ParSym "world2L0" 6 B.w2l fw) (he : ParSym "Ln2EE" 6 B.ee fe) (ρ : Var → ℝ)
    (c : Fin (kinSymbols B.n fdh fw fe).length) (a : Fin B.n) :
    HasDerivAt (fun t => ((SX.val (Function.update ρ (kinSymbols B.n fdh fw fe)[c] t) B.Jee 6 B.n)ᵀ *ᵥ
        fun j : Fin 6 => ρ ⟨"w", j⟩) a)
      (SX.val ρ (B.regJTw fdh fw fe) B.n (kinSymbols B.n fdh fw fe).length a c) (ρ (kinSymbols B.n fdh fw fe)[c]) := by
  have hv := kinSymbols_name (List.getElem_mem c.2)
  have hs : Expr.Smooth {(kinSymbols B.n fdh fw fe)[c]} ((SX.mtimes (SX.transp B.Jee) B.w).e a 0) :=
    (Base.smooth_Jee hB).transp.mtimes (by rw [hB.w]; exact SX.Smooth.sym _ _) _ _
  have h := Expr.hasDerivAt_D (ρ := ρ) hs
  rw [← eval_jacobian_symbols ρ (SX.mtimes (SX.transp B.Jee) B.w) _ (lt_of_lt_of_eq a.2 Base.Jee_cols.symm) c, ← kinPar_eq hd hw he] at h
  have e : (fun t => ((SX.val (Function.update ρ (kinSymbols B.n fdh fw fe)[c] t) B.Jee 6 B.n)ᵀ *ᵥ
      fun j : Fin 6 => ρ ⟨"w", j⟩) a) =
      fun t => Expr.eval (Function.update ρ (kinSymbols B.n fdh fw fe)[c] t) ((SX.mtimes (SX.transp B.Jee) B.w).e a 0) := by
    funext t
    have h1 := congrFun (SX.vec_mtimes (Function.update ρ (kinSymbols B.n fdh fw fe)[c] t) (SX.transp B.Jee) B.w B.n 6 Base.Jee_rows) a
    rw [hB.w, SX.vec_sym] at h1
    rw [hB.w]
    refine Eq.trans ?_ h1.symm
    rw [SX.val_transp]
    congr 2
    funext j
    rw [Function.update_of_ne]
    intro h'
    rw [Fin.getElem_fin] at h'
    rw [← h'] at hv
    simp at hv
  rw [e]; exact h

/-- The hypotheses hold for the example robot, which has 10 symbolic kinematic parameters. -/
example : ParSym "DHtable" 12 Ex.B.dh [1, 0, 0, 0, 0, 0, 1, 0, 1, 1, 1, 1] ∧ ParSym "world2L0" 6 Ex.B.w2l [1, 0, 0, 1, 0, 0] ∧
    ParSym "Ln2EE" 6 Ex.B.ee [0, 0, 1, 0, 1, 0] := by
  have h1 := Ex.parX_parSym "DHtable" Ex.dhL
  have h2 := Ex.parX_parSym "world2L0" Ex.w2lL
  have h3 := Ex.parX_parSym "Ln2EE" Ex.eeL
  refine ⟨?_, ?_, ?_⟩
  · simpa [Ex.B, Ex.dhL] using h1
  · simpa [Ex.B, Ex.w2lL] using h2
  · simpa [Ex.B, Ex.eeL] using h3

end

end Thunder
