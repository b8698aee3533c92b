import Verif.Lemmas.Library
import Verif.Lemmas.RegLin

/-!
# Friction, elasticity and parameter regressors: construction, size, symbols, agreement
-/

open scoped Classical

namespace Thunder

open SX

noncomputable section

variable {P : Var → Option ℝ} {S : Set Var}

theorem ent_fricTerm {v v' : Expr} (h : v.fv ⊆ S ∧ v.Eqv P v') (o : ℕ) : (fricTerm v o).fv ⊆ S ∧ (fricTerm v o).Eqv P (fricTerm v' o) := by
  unfold fricTerm
  split_ifs
  · exact ent_pow h _
  · exact ent_smul (ent_sqrt (ent_pow h 2)) (ent_pow h o)

theorem ent_fricLaw {v v' : Expr} {p p' : SX} {r c : ℕ} (h : v.fv ⊆ S ∧ v.Eqv P v') (hp : Rel P S r c p p') (b o : ℕ) :
    (fricLaw v p b o).fv ⊆ S ∧ (fricLaw v p b o).Eqv P (fricLaw v' p' b o) :=
  ent_sumN fun _ _ => ent_smul (ent_fricTerm h _) (hp.ent _ _)

theorem ent_oddLaw {v v' : Expr} {p p' : SX} {r c : ℕ} (h : v.fv ⊆ S ∧ v.Eqv P v') (hp : Rel P S r c p p') (b o : ℕ) :
    (oddLaw v p b o).fv ⊆ S ∧ (oddLaw v p b o).Eqv P (oddLaw v' p' b o) :=
  ent_sumN fun _ _ => ent_smul (ent_pow h _) (hp.ent _ _)

/-- A column given entry by entry. -/
theorem rel_column {m : ℕ} {f f' : ℕ → Expr} {p p' : Prop} (hp : p) (h : ∀ i < m, (f i).fv ⊆ S ∧ (f i).Eqv P (f' i)) :
    Rel P S m 1 ⟨m, 1, fun i j => if i < m ∧ j = 0 then f i else .const 0, p⟩ ⟨m, 1, fun i j => if i < m ∧ j = 0 then f' i else .const 0, p'⟩ where
  ok := hp
  rows := rfl
  cols := rfl
  rows' := rfl
  cols' := rfl
  over i j := by
    simp only
    split_ifs with hi
    · exact (h i hi.1).1
    · simp
  eqv i j := by
    simp only
    split_ifs with hi
    · exact (h i hi.1).2
    · exact .refl _

theorem rel_diagPar {p p' : SX} {k m order : ℕ} (h : Rel P S k 1 p p') (hk : m * order ≤ k) (o : ℕ) :
    Rel P S m m (diagPar p m order o) (diagPar p' m order o) where
  ok := ⟨h.ok, by rw [h.rows]; exact hk⟩
  rows := rfl
  cols := rfl
  rows' := rfl
  cols' := rfl
  over i j := by
    simp only [diagPar]
    split_ifs
    · exact h.over _ _
    · simp
  eqv i j := by
    simp only [diagPar]
    split_ifs
    · exact h.eqv _ _
    · exact .refl _

namespace Base

variable {B B' : Base}

theorem rel_dlFun (hn : B'.n = B.n) (hdq : Rel P S B.n 1 B.dq B'.dq) {order : ℕ} (h : Rel P S (B.n * order) 1 B.dl B'.dl) :
    Rel P S B.n 1 (B.dlFun order) (B'.dlFun order) := by
  unfold Base.dlFun
  rw [hn]
  exact rel_column ⟨hdq.ok, h.ok, hdq.rows.ge, h.rows.ge⟩ fun i _ => ent_fricLaw (hdq.ent i 0) h _ _

variable {m order n : ℕ}

theorem rel_kFun (hq : Rel P S n 1 B.q B'.q) (hmn : m ≤ n) (hx : Rel P S m 1 B.x B'.x) (h : Rel P S (m * order) 1 B.parK B'.parK) :
    Rel P S m 1 (B.kFun m order) (B'.kFun m order) :=
  rel_column ⟨hq.ok, hx.ok, h.ok, by rw [hq.rows]; exact hmn, hx.rows.ge, h.rows.ge⟩
    fun i _ => ent_oddLaw (ent_ssub (hx.ent i 0) (hq.ent i 0)) h _ _

theorem rel_dFun (hq : Rel P S n 1 B.dq B'.dq) (hmn : m ≤ n) (hx : Rel P S m 1 B.dx B'.dx) (h : Rel P S (m * order) 1 B.parD B'.parD) :
    Rel P S m 1 (B.dFun m order) (B'.dFun m order) :=
  rel_column ⟨hq.ok, hx.ok, h.ok, by rw [hq.rows]; exact hmn, hx.rows.ge, h.rows.ge⟩
    fun i _ => ent_fricLaw (ent_ssub (hx.ent i 0) (hq.ent i 0)) h _ _

theorem rel_dmFun (hx : Rel P S m 1 B.dx B'.dx) (h : Rel P S (m * order) 1 B.parDm B'.parDm) :
    Rel P S m 1 (B.dmFun m order) (B'.dmFun m order) :=
  rel_column ⟨hx.ok, h.ok, hx.rows.ge, h.rows.ge⟩ fun i _ => ent_fricLaw (hx.ent i 0) h _ _

theorem rel_MmFun (h : Rel P S m 1 B.parMm B'.parMm) : Rel P S m m (B.MmFun m) (B'.MmFun m) := rel_diagPar h (by omega) 0

end Base

/-! ## Parameter regressors -/

/-- The derivatives with respect to the symbols `name` use only symbols of `S`. -/
def LinIn (name : String) (S : Set Var) (e : Expr) : Prop := ∀ i, (Expr.D ⟨name, i⟩ e).fv ⊆ S

variable {name : String}

theorem LinIn.const (c : ℝ) : LinIn name S (.const c) := fun i => by simp [Expr.D]

theorem LinIn.sadd {a b : Expr} (ha : LinIn name S a) (hb : LinIn name S b) : LinIn name S (a.sadd b) := by
  intro i
  unfold Expr.sadd
  split_ifs
  · exact hb i
  · exact ha i
  · exact (Expr.fv_sadd _ _).trans (Set.union_subset (ha i) (hb i))

theorem LinIn.sumE {l : List Expr} (h : ∀ e ∈ l, LinIn name S e) : LinIn name S (Expr.sumE l) := by
  induction l with
  | nil => exact LinIn.const _
  | cons a l ih => exact LinIn.sadd (h a (by simp)) (ih fun e he => h e (by simp [he]))

theorem LinIn.sumN {n : ℕ} {f : ℕ → Expr} (h : ∀ k < n, LinIn name S (f k)) : LinIn name S (sumN n f) := by
  apply LinIn.sumE
  intro e he
  simp only [List.mem_map, List.mem_range] at he
  obtain ⟨k, hk, rfl⟩ := he
  exact h k hk

/-- An entry of a parameter vector. -/
theorem LinIn.entry {k : ℕ} {p : SX} (h : ParVec name k p) (i j : ℕ) : LinIn name S (p.e i j) := by
  rcases h.e i j with ⟨e, -, -⟩ | ⟨c, e⟩
  · rw [e]
    intro l
    simp only [Expr.D]
    split_ifs <;> simp
  · rw [e]; exact LinIn.const c

theorem LinIn.smul {a b : Expr} (ha : a.fv ⊆ S) (hn : ∀ v ∈ a.fv, v.name ≠ name) (hb : LinIn name S b) : LinIn name S (a.smul b) := by
  intro i
  unfold Expr.smul
  split_ifs
  · simp [Expr.D]
  · have h0 : Expr.D ⟨name, i⟩ a = .const 0 := Expr.D_eq_zero fun hv => hn _ hv rfl
    simp only [Expr.D, h0]
    refine (Expr.fv_sadd _ _).trans (Set.union_subset ?_ ((Expr.fv_smul _ _).trans (Set.union_subset ha (hb i))))
    simp [Expr.smul]

theorem LinIn.smul_right {a b : Expr} (ha : a.fv ⊆ S) (hn : ∀ v ∈ a.fv, v.name ≠ name) (hb : LinIn name S b) : LinIn name S (b.smul a) := by
  intro i
  unfold Expr.smul
  split_ifs
  · simp [Expr.D]
  · have h0 : Expr.D ⟨name, i⟩ a = .const 0 := Expr.D_eq_zero fun hv => hn _ hv rfl
    simp only [Expr.D, h0]
    refine (Expr.fv_sadd _ _).trans (Set.union_subset ((Expr.fv_smul _ _).trans (Set.union_subset (hb i) ha)) ?_)
    simp [Expr.smul]

theorem symbPar_eq {k : ℕ} {p : SX} {flags : List ℤ} (h : ParSym name k p flags) :
    Base.symbPar p flags = (Spec.symIdx flags k).map fun i => Expr.var ⟨name, i⟩ := by
  rw [Base.symbPar, h.rows, ← Spec.symIdx]
  refine List.map_congr_left fun i hi => ?_
  obtain ⟨h1, h2⟩ := mem_symIdx.mp hi
  exact h.sym i h1 h2

/-- Jacobian of a column with respect to the symbolic entries of a parameter vector. -/
theorem rel_parJac {k m : ℕ} {p A : SX} {flags : List ℤ} (h : ParSym name k p flags) (hok : A.ok) (hr : A.rows = m) (hc : A.cols = 1)
    (hA : ∀ i j, LinIn name S (A.e i j)) : Rel P S m (Spec.symIdx flags k).length (SX.jacobian A (SX.ofList (Base.symbPar p flags)))
      (SX.jacobian A (SX.ofList (Base.symbPar p flags))) := by
  have hs := symbPar_eq h
  refine Rel.self ⟨hok, trivial, fun c hc => ?_⟩ ?_ ?_ fun i j => ?_
  · rw [hs] at hc ⊢
    simp only [SX.ofList, List.length_map] at hc
    simp [SX.ofList, hc, SX.IsSym]
  · simp [SX.jacobian, hr, hc]
  · simp [SX.jacobian, SX.ofList, hs]
  · rw [hs]
    simp only [SX.jacobian, SX.ofList, if_true]
    by_cases hj : j < (Spec.symIdx flags k).length
    · simp only [List.getD_eq_getElem?_getD, List.getElem?_map, List.getElem?_eq_getElem hj, Option.map_some, Option.getD_some, SX.Dx]
      exact hA _ _ _
    · simp [hj, SX.Dx]

theorem linIn_fricLaw {v : Expr} {p : SX} {k : ℕ} (hv : v.fv ⊆ S) (hn : ∀ x ∈ v.fv, x.name ≠ name) (hp : ParVec name k p) (b o : ℕ) :
    LinIn name S (fricLaw v p b o) := by
  have h1 : ∀ T : Set Var, v.fv ⊆ T → ∀ o, (fricTerm v o).fv ⊆ T := fun T hT o =>
    (ent_fricTerm (P := fun _ => none) ⟨hT, Expr.Eqv.refl _⟩ o).1
  exact LinIn.sumN fun i _ => LinIn.smul (h1 S hv i) (fun x hx => hn x (h1 v.fv subset_rfl i hx)) (LinIn.entry hp _ _)

theorem linIn_oddLaw {v : Expr} {p : SX} {k : ℕ} (hv : v.fv ⊆ S) (hn : ∀ x ∈ v.fv, x.name ≠ name) (hp : ParVec name k p) (b o : ℕ) :
    LinIn name S (oddLaw v p b o) :=
  LinIn.sumN fun i _ => LinIn.smul (a := .pow v (2 * i + 1)) hv (fun x hx => hn x hx) (LinIn.entry hp _ _)

theorem linIn_column {m : ℕ} {f : ℕ → Expr} {p : Prop} (h : ∀ i, LinIn name S (f i)) (i j : ℕ) :
    LinIn name S (SX.e ⟨m, 1, fun i j => if i < m ∧ j = 0 then f i else .const 0, p⟩ i j) := by
  simp only
  split_ifs
  · exact h i
  · exact LinIn.const 0

/-- The symbols of a variable, as a set. -/
theorem fv_sym_names (nm : String) (n i j : ℕ) : ∀ x ∈ ((SX.sym nm n).e i j).fv, x.name = nm := by
  intro x hx
  simp only [SX.sym] at hx
  split_ifs at hx
  · simp only [Expr.fv, Set.mem_singleton_iff] at hx
    rw [hx]
  · simp [Expr.fv] at hx

theorem fv_ssub_all {a b : Expr} {p : Var → Prop} (ha : ∀ x ∈ a.fv, p x) (hb : ∀ x ∈ b.fv, p x) : ∀ x ∈ (a.ssub b).fv, p x := fun x hx => by
  rcases Expr.fv_ssub _ _ hx with h | h
  · exact ha x h
  · exact hb x h

namespace Base

variable {B : Base} {m n order : ℕ} {flags : List ℤ}

theorem rel_regDl (hdq : B.dq = SX.sym "dq" B.n) (hv : VarIn S "dq" B.n) (h : ParSym "par_Dl" (B.n * order) B.dl flags) :
    Rel P S B.n (Spec.symIdx flags (B.n * order)).length (B.regDl order flags) (B.regDl order flags) := by
  have hr : Rel P S B.n 1 B.dq B.dq := by rw [hdq]; exact Rel.sym hv
  refine rel_parJac h ⟨hr.ok, h.ok, hr.rows.ge, h.rows.ge⟩ rfl rfl (linIn_column fun i => ?_)
  refine linIn_fricLaw (hr.over _ _) (fun x hx => ?_) h.toParVec _ _
  rw [hdq] at hx
  rw [fv_sym_names _ _ _ _ x hx]; decide

theorem rel_regK (hq : B.q = SX.sym "q" n) (hx : B.x = SX.sym "x" m) (hmn : m ≤ n) (hv : VarIn S "q" n) (hv' : VarIn S "x" m)
    (h : ParSym "par_K" (m * order) B.parK flags) :
    Rel P S m (Spec.symIdx flags (m * order)).length (B.regK m order flags) (B.regK m order flags) := by
  have h1 : Rel P S n 1 B.q B.q := by rw [hq]; exact Rel.sym hv
  have h2 : Rel P S m 1 B.x B.x := by rw [hx]; exact Rel.sym hv'
  refine rel_parJac h ⟨h1.ok, h2.ok, h.ok, by rw [h1.rows]; exact hmn, h2.rows.ge, h.rows.ge⟩ rfl rfl (linIn_column fun i => ?_)
  refine linIn_oddLaw (ent_ssub (h2.ent _ _) (h1.ent _ _)).1 (fv_ssub_all (fun x hx' => ?_) (fun x hx' => ?_)) h.toParVec _ _
  · rw [hx] at hx'
    rw [fv_sym_names _ _ _ _ x hx']; decide
  · rw [hq] at hx'
    rw [fv_sym_names _ _ _ _ x hx']; decide

theorem rel_regD (hq : B.dq = SX.sym "dq" n) (hx : B.dx = SX.sym "dx" m) (hmn : m ≤ n) (hv : VarIn S "dq" n) (hv' : VarIn S "dx" m)
    (h : ParSym "par_D" (m * order) B.parD flags) :
    Rel P S m (Spec.symIdx flags (m * order)).length (B.regD m order flags) (B.regD m order flags) := by
  have h1 : Rel P S n 1 B.dq B.dq := by rw [hq]; exact Rel.sym hv
  have h2 : Rel P S m 1 B.dx B.dx := by rw [hx]; exact Rel.sym hv'
  refine rel_parJac h ⟨h1.ok, h2.ok, h.ok, by rw [h1.rows]; exact hmn, h2.rows.ge, h.rows.ge⟩ rfl rfl (linIn_column fun i => ?_)
  refine linIn_fricLaw (ent_ssub (h2.ent _ _) (h1.ent _ _)).1 (fv_ssub_all (fun x hx' => ?_) (fun x hx' => ?_)) h.toParVec _ _
  · rw [hx] at hx'
    rw [fv_sym_names _ _ _ _ x hx']; decide
  · rw [hq] at hx'
    rw [fv_sym_names _ _ _ _ x hx']; decide

theorem rel_regDm (hx : B.dx = SX.sym "dx" m) (hv' : VarIn S "dx" m) (h : ParSym "par_Dm" (m * order) B.parDm flags) :
    Rel P S m (Spec.symIdx flags (m * order)).length (B.regDm m order flags) (B.regDm m order flags) := by
  have h2 : Rel P S m 1 B.dx B.dx := by rw [hx]; exact Rel.sym hv'
  refine rel_parJac h ⟨h2.ok, h.ok, h2.rows.ge, h.rows.ge⟩ rfl rfl (linIn_column fun i => ?_)
  refine linIn_fricLaw (h2.over _ _) (fun x hx' => ?_) h.toParVec _ _
  rw [hx] at hx'
  rw [fv_sym_names _ _ _ _ x hx']; decide

theorem rel_regMm (hx : B.ddx = SX.sym "ddx" m) (hv' : VarIn S "ddx" m) (h : ParSym "par_Mm" m B.parMm flags) :
    Rel P S m (Spec.symIdx flags m).length (B.regMm m flags) (B.regMm m flags) := by
  have h2 : Rel P S m 1 B.ddx B.ddx := by rw [hx]; exact Rel.sym hv'
  refine rel_parJac h ⟨⟨h.ok, ?_⟩, h2.ok, ?_⟩ rfl h2.cols fun i j => LinIn.sumN fun k _ => ?_
  · rw [h.rows, mul_one]
  · exact h2.rows.symm
  · refine LinIn.smul_right (h2.over _ _) (fun x hx' => ?_) ?_
    · rw [hx] at hx'
      rw [fv_sym_names _ _ _ _ x hx']; decide
    · simp only [MmFun, diagPar]
      split_ifs
      · exact LinIn.entry h.toParVec _ _
      · exact LinIn.const 0

/-- The symbolic kinematic parameters are symbols. -/
theorem isSym_kinPar {k : ℕ} {fdh fw fe : List ℤ} (h1 : ParSym "DHtable" k B.dh fdh) (h2 : ParSym "world2L0" 6 B.w2l fw) (h3 : ParSym "Ln2EE" 6 B.ee fe) :
    ∀ i < (B.kinPar fdh fw fe).rows, SX.IsSym ((B.kinPar fdh fw fe).e i 0) := by
  intro i hi
  unfold Base.kinPar at hi ⊢
  rw [symbPar_eq h1, symbPar_eq h2, symbPar_eq h3] at hi ⊢
  simp only [SX.ofList, if_true] at hi ⊢
  rw [List.getD_eq_getElem?_getD, List.getElem?_eq_getElem hi, Option.getD_some]
  have key : ∀ e ∈ (List.map (fun i => Expr.var ⟨"DHtable", i⟩) (Spec.symIdx fdh k) ++ List.map (fun i => Expr.var ⟨"world2L0", i⟩) (Spec.symIdx fw 6)
      ++ List.map (fun i => Expr.var ⟨"Ln2EE", i⟩) (Spec.symIdx fe 6)), SX.IsSym e := by
    intro e he
    simp only [List.mem_append, List.mem_map] at he
    rcases he with (⟨a, _, rfl⟩ | ⟨a, _, rfl⟩) | ⟨a, _, rfl⟩ <;> trivial
  exact key _ (List.getElem_mem hi)

/-- Jacobian with respect to symbols, without a second robot. -/
theorem rel_jacobian_self {A x : SX} {r c k : ℕ} (h : Rel P S r c A A) (hx : x.rows = k) (hok : x.ok) (hs : ∀ i < x.rows, SX.IsSym (x.e i 0)) :
    Rel P S (r * c) k (SX.jacobian A x) (SX.jacobian A x) :=
  Rel.self ⟨h.ok, hok, hs⟩ (by simp [SX.jacobian, h.rows, h.cols]) hx (h.over.jacobian x)

variable [Fl] {fdh fw fe : List ℤ}

theorem Kin.regJdq (h : Kin P S B B) (he : Rel P S 6 1 B.ee B.ee) (hdq : VarIn S "dq" B.n) (h1 : ParSym "DHtable" (B.n * 4) B.dh fdh)
    (h2 : ParSym "world2L0" 6 B.w2l fw) (h3 : ParSym "Ln2EE" 6 B.ee fe) :
    Rel P S 6 (B.kinPar fdh fw fe).rows (B.regJdq fdh fw fe) (B.regJdq fdh fw fe) :=
  rel_jacobian_self (c := 1) ((h.Jee he).mtimes (h.relDq hdq)) rfl trivial (isSym_kinPar h1 h2 h3)

theorem Kin.regJTw (h : Kin P S B B) (he : Rel P S 6 1 B.ee B.ee) (hw : VarIn S "w" 6) (h1 : ParSym "DHtable" (B.n * 4) B.dh fdh)
    (h2 : ParSym "world2L0" 6 B.w2l fw) (h3 : ParSym "Ln2EE" 6 B.ee fe) :
    Rel P S (B.n * 1) (B.kinPar fdh fw fe).rows (B.regJTw fdh fw fe) (B.regJTw fdh fw fe) :=
  rel_jacobian_self ((h.Jee he).transp.mtimes (h.relW hw)) rfl trivial (isSym_kinPar h1 h2 h3)

end Base

end

end Thunder
