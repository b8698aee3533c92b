import Verif.Lemmas.SystemReg

/-!
# Friction, elastic joints and parameter regressors of a robot built from a file
-/

set_option linter.unusedSectionVars false

open scoped Classical
open Matrix

namespace Thunder

noncomputable section

open Spec Robot SX

variable {c : Conf}

/-! ## Generalities -/

theorem setV_id (name : String) (ρ : Var → ℝ) (n : ℕ) : setV name ρ (fun i : Fin n => ρ ⟨name, i⟩) = ρ := by
  funext v
  unfold setV
  split_ifs with h
  · obtain ⟨nm, i⟩ := v
    obtain ⟨h1, -⟩ := h
    subst h1
    rfl
  · rfl

theorem setV_set (name : String) (ρ : Var → ℝ) {m : ℕ} (x y : Fin m → ℝ) : setV name (setV name ρ x) y = setV name ρ y := by
  funext v
  unfold setV
  split_ifs <;> rfl

theorem symbol_val {nm : String} (ρ : Var → ℝ) {m : ℕ} {f : ℕ → ℤ} (p : ℕ → ℝ) :
    (fun j : Fin (symbolIdx m f).length => setV nm ρ (fun i : Fin m => p i) ⟨nm, (symbolIdx m f)[j]⟩) = fun j => p (symbolIdx m f)[j] := by
  funext j
  have h : (symbolIdx m f)[j] < m := by
    have := List.getElem_mem j.2
    exact List.mem_range.1 (List.mem_filter.1 this).1
  exact setV_self' h

theorem friction_congr {a b : ℕ → ℝ} {N : ℕ} (h : ∀ k < N, a k = b k) (v : ℝ) : friction a N v = friction b N v :=
  Finset.sum_congr rfl fun k hk => by rw [h k (Finset.mem_range.1 hk)]
theorem spring_congr {a b : ℕ → ℝ} {N : ℕ} (h : ∀ k < N, a k = b k) (v : ℝ) : spring a N v = spring b N v :=
  Finset.sum_congr rfl fun k hk => by rw [h k (Finset.mem_range.1 hk)]

/-- Coefficients that agree with the file on the numeric entries. -/
theorem parV_set (s : State c) {k : Key} (hh : k.here c) (p : ℕ → ℝ) {i : ℕ} (hi : i < k.size c) (hp : k.flag c i = 0 → p i = k.val c i) :
    parV (setV k.sym (env c s) (fun i : Fin (k.size c) => p i)) (kmod c k) i = p i := by
  unfold parV
  rw [kmod_here hh]
  by_cases hf : k.flag c i = 0
  · rw [Key.mat_num hi hf, hp hf]; rfl
  · rw [Key.mat_sym hi hf]
    exact setV_self' hi

theorem parV_zero (ρ : Var → ℝ) {k : Key} (hh : k.here c) (p : ℕ → ℝ) {i : ℕ} (hi : i < k.size c) (hp : k.flag c i = 0 → p i = k.val c i) :
    parV (setV k.sym ρ (0 : Fin (k.size c) → ℝ)) (kmod c k) i = numericPart (k.flag c) p i := by
  unfold parV numericPart
  rw [kmod_here hh]
  by_cases hf : k.flag c i = 0
  · rw [Key.mat_num hi hf, if_pos hf, hp hf]; rfl
  · rw [Key.mat_sym hi hf, if_neg hf]
    exact setV_self' hi

theorem parV_env (s : State c) {k : Key} (hk : k.isVar = false) (hh : k.here c) {i : ℕ} (hi : i < k.size c) :
    parV (env c s) (kmod c k) i = k.val c i := eval_par s hk hh hi

theorem symIdx_key {k : Key} {m : ℕ} (hm : k.size c = m) : Spec.symIdx (k.flags c) m = symbolIdx m (k.flag c) := by
  subst hm
  exact Key.symIdx_flags k

theorem setV_other (s : State c) {k k' : Key} (h : k ≠ k') {m : ℕ} (x : Fin m → ℝ) (i : ℕ) :
    setV k'.sym (env c s) x ⟨k.sym, i⟩ = env c s ⟨k.sym, i⟩ := setV_ne fun e => h (Key.sym_inj e)

/-! ## Shapes -/

theorem fric_wf (hd : 0 < c.dlO) : (base c).FricWF c.dlO := parVec_kmod (k := .Dl) hd

theorem ne_eq (c : Conf) : c.ne = (elasticJoints c.types).length := by
  have h : c.types = (List.range c.types.length).map fun i => c.types.getD i "" := by
    refine List.ext_getElem? fun i => ?_
    by_cases hi : i < c.types.length
    · simp [hi]
    · simp [hi]
  have : ∀ l : List ℕ, (l.map fun i => c.types.getD i "").countP (fun t => t == "R_SEA" || t == "P_SEA") =
      (l.filter fun i => c.types.getD i "" = "R_SEA" ∨ c.types.getD i "" = "P_SEA").length := by
    intro l
    rw [List.countP_map, List.countP_eq_length_filter]
    congr 1
    refine List.filter_congr fun i _ => ?_
    simp only [Function.comp_apply, beq_eq_decide, Bool.decide_or]
  unfold Conf.ne elasticJoints
  rw [← this, ← h]

section

variable (he : c.elastic = true)
include he

theorem size_x : Key.x.size c = c.ne := if_pos he
theorem size_dx : Key.dx.size c = c.ne := if_pos he
theorem size_ddx : Key.ddx.size c = c.ne := if_pos he
theorem size_K : Key.K.size c = c.ne * c.kO := if_pos he
theorem size_D : Key.D.size c = c.ne * c.dO := if_pos he
theorem size_Dm : Key.Dm.size c = c.ne * c.dmO := if_pos he
theorem size_Mm : Key.Mm.size c = c.ne := if_pos he

theorem elastic_wf : (base c).ElasticWF c.ne c.kO c.dO c.dmO where
  m_eq := ne_eq c
  x := by rw [← size_x he]; exact kmod_var (k := .x) he rfl
  dx := by rw [← size_dx he]; exact kmod_var (k := .dx) he rfl
  ddx := by rw [← size_ddx he]; exact kmod_var (k := .ddx) he rfl
  parK := by rw [← size_K he]; exact parVec_kmod (k := .K) he
  parD := by rw [← size_D he]; exact parVec_kmod (k := .D) he
  parDm := by rw [← size_Dm he]; exact parVec_kmod (k := .Dm) he
  parMm := by rw [← size_Mm he]; exact parVec_kmod (k := .Mm) he

end

theorem env_x (s : State c) (k : Fin c.ne) : env c s ⟨"x", k⟩ = s.x k := by
  have := env_key s .x k
  simp only [Spec.State.at, dif_pos k.2] at this
  exact this
theorem env_dx (s : State c) (k : Fin c.ne) : env c s ⟨"dx", k⟩ = s.dx k := by
  have := env_key s .dx k
  simp only [Spec.State.at, dif_pos k.2] at this
  exact this
theorem env_ddx (s : State c) (k : Fin c.ne) : env c s ⟨"ddx", k⟩ = s.ddx k := by
  have := env_key s .ddx k
  simp only [Spec.State.at, dif_pos k.2] at this
  exact this
theorem env_dqv (s : State c) {k : ℕ} (hk : k < c.n) : env c s ⟨"dq", k⟩ = s.dq ⟨k, hk⟩ := by
  have := env_key s .dq k
  simp only [Spec.State.at, dif_pos hk] at this
  exact this
theorem env_w (s : State c) (k : Fin 6) : env c s ⟨"w", k⟩ = s.w k := by
  have := env_key s .w k
  simp only [Spec.State.at, dif_pos k.2] at this
  exact this

/-! ## The laws, for any values of the symbols -/

section

variable (hn : 0 < c.n) (ht : Typed c) (ρ : Var → ℝ)
include hn ht

theorem vec_dl (hd : 0 < c.dlO) (i : Fin c.n) : SX.vec ρ ((base c).dlFun c.dlO) c.n i =
    friction (fun k => parV ρ (kmod c .Dl) (i * c.dlO + k)) c.dlO (ρ ⟨"dq", i⟩) := by
  have h : SX.vec (setV "dq" ρ (fun i : Fin c.n => ρ ⟨"dq", i⟩)) ((base c).dlFun c.dlO) c.n i =
    friction (fun k => parV ρ (kmod c .Dl) (i * c.dlO + k)) c.dlO (ρ ⟨"dq", i⟩) := C19_law (base_wf hn ht) (fric_wf hd) ρ _ i
  rwa [setV_id] at h

theorem vec_k (he : c.elastic = true) (e : Fin c.ne) : SX.vec ρ ((base c).kFun c.ne c.kO) c.ne e =
    spring (fun k => parV ρ (kmod c .K) (e * c.kO + k)) c.kO (ρ ⟨"x", e⟩ - ρ ⟨"q", e⟩) := by
  have h : SX.vec (setV "q" (setV "x" ρ (fun i : Fin c.ne => ρ ⟨"x", i⟩)) (fun i : Fin c.n => ρ ⟨"q", i⟩)) ((base c).kFun c.ne c.kO) c.ne e =
    spring (fun k => parV ρ (kmod c .K) (e * c.kO + k)) c.kO (ρ ⟨"x", e⟩ - ρ ⟨"q", e⟩) := Base.eval_k (base_wf hn ht) (elastic_wf he) ρ _ _ e
  rwa [setV_id, setV_id] at h

theorem vec_d (he : c.elastic = true) (e : Fin c.ne) : SX.vec ρ ((base c).dFun c.ne c.dO) c.ne e =
    friction (fun k => parV ρ (kmod c .D) (e * c.dO + k)) c.dO (ρ ⟨"dx", e⟩ - ρ ⟨"dq", e⟩) := by
  have h : SX.vec (setV "dq" (setV "dx" ρ (fun i : Fin c.ne => ρ ⟨"dx", i⟩)) (fun i : Fin c.n => ρ ⟨"dq", i⟩)) ((base c).dFun c.ne c.dO) c.ne e =
    friction (fun k => parV ρ (kmod c .D) (e * c.dO + k)) c.dO (ρ ⟨"dx", e⟩ - ρ ⟨"dq", e⟩) := Base.eval_d (base_wf hn ht) (elastic_wf he) ρ _ _ e
  rwa [setV_id, setV_id] at h

omit hn ht in
theorem vec_dm (he : c.elastic = true) (e : Fin c.ne) : SX.vec ρ ((base c).dmFun c.ne c.dmO) c.ne e =
    friction (fun k => parV ρ (kmod c .Dm) (e * c.dmO + k)) c.dmO (ρ ⟨"dx", e⟩) := by
  have h : SX.vec (setV "dx" ρ (fun i : Fin c.ne => ρ ⟨"dx", i⟩)) ((base c).dmFun c.ne c.dmO) c.ne e =
    friction (fun k => parV ρ (kmod c .Dm) (e * c.dmO + k)) c.dmO (ρ ⟨"dx", e⟩) := Base.eval_dm (elastic_wf he) ρ _ e
  rwa [setV_id] at h

omit hn ht in
theorem val_diagPar (A : SX) (m order j : ℕ) : SX.val ρ (diagPar A m order j) m m = gains m order j (parV ρ A) := by
  ext a b
  unfold gains
  rw [Matrix.diagonal_apply]
  show Expr.eval ρ (if (a : ℕ) < m ∧ (a : ℕ) = b then A.e (a * order + j) 0 else .const 0) = _
  by_cases h : a = b
  · subst h
    rw [if_pos ⟨a.2, rfl⟩, if_pos rfl]
    rfl
  · rw [if_neg fun hh => h (Fin.ext hh.2), if_neg h]
    rfl

end

theorem gains_congr {m order j : ℕ} {p p' : ℕ → ℝ} (hj : j < order) (h : ∀ i < m * order, p i = p' i) : gains m order j p = gains m order j p' := by
  unfold gains
  congr 1
  funext i
  exact h _ (Base.coef_lt i.2 hj)

/-! ## The laws in use -/

section

variable (hn : 0 < c.n) (ht : Typed c) (s : State c)
include hn ht

theorem env_dl (hd : 0 < c.dlO) : SX.vec (env c s) ((base c).dlFun c.dlO) c.n = frictionOf c c.dl s.dq := by
  funext i
  rw [vec_dl hn ht _ hd, env_dqv s i.2]
  exact friction_congr (fun k hk => parV_env s (k := .Dl) rfl hd (Base.coef_lt i.2 hk)) _

theorem env_k (he : c.elastic = true) : SX.vec (env c s) ((base c).kFun c.ne c.kO) c.ne = springOf c c.K s.q s.x := by
  funext e
  rw [vec_k hn ht _ he, env_x, env_q s (lt_of_lt_of_le e.2 (ne_le_n c))]
  exact spring_congr (fun k hk => parV_env s (k := .K) rfl he (by rw [size_K he]; exact Base.coef_lt e.2 hk)) _

theorem env_d (he : c.elastic = true) : SX.vec (env c s) ((base c).dFun c.ne c.dO) c.ne = damperOf c c.D s.dq s.dx := by
  funext e
  rw [vec_d hn ht _ he, env_dx, env_dqv s (lt_of_lt_of_le e.2 (ne_le_n c))]
  exact friction_congr (fun k hk => parV_env s (k := .D) rfl he (by rw [size_D he]; exact Base.coef_lt e.2 hk)) _

omit hn ht in
theorem env_dm (he : c.elastic = true) : SX.vec (env c s) ((base c).dmFun c.ne c.dmO) c.ne = motorFrictionOf c c.Dm s.dx := by
  funext e
  rw [vec_dm _ he, env_dx]
  exact friction_congr (fun k hk => parV_env s (k := .Dm) rfl he (by rw [size_Dm he]; exact Base.coef_lt e.2 hk)) _

omit hn ht in
theorem env_gains {k : Key} (hk : k.isVar = false) (hh : k.here c) {m order j : ℕ} (hs : k.size c = m * order) (hj : j < order) :
    SX.val (env c s) (diagPar (kmod c k) m order j) m m = gains m order j (k.val c) := by
  rw [val_diagPar]
  exact gains_congr hj fun i hi => parV_env s hk hh (by rw [hs]; exact hi)

/-! ## Parameter regressors -/

omit hn ht in
theorem parSym_kmod {k : Key} (hh : k.here c) {m : ℕ} (hs : k.size c = m) : ParSym k.sym m (kmod c k) (k.flags c) := by
  subst hs
  rw [kmod_here hh]
  exact k.parSym

theorem reg_Dl (hd : 0 < c.dlO) (p : ℕ → ℝ) (hp : ∀ i, c.fdl i = 0 → p i = c.dl i) : frictionOf c p s.dq =
    SX.val (env c s) ((base c).regDl c.dlO (Key.Dl.flags c)) c.n (symbolIdx (c.n * c.dlO) c.fdl).length *ᵥ (fun j => p (symbolIdx (c.n * c.dlO) c.fdl)[j]) +
      frictionOf c (numericPart c.fdl p) s.dq := by
  have hF : ParSym "par_Dl" (c.n * c.dlO) (kmod c .Dl) (Key.Dl.flags c) := parSym_kmod (k := .Dl) hd rfl
  have h : ∀ L, Spec.symIdx (Key.Dl.flags c) (c.n * c.dlO) = L → ∀ ρ : Var → ℝ, (SX.vec ρ ((base c).dlFun c.dlO) c.n =
      SX.val ρ ((base c).regDl c.dlO (Key.Dl.flags c)) c.n L.length *ᵥ
        (fun j => ρ ⟨"par_Dl", L[j]⟩) +
      SX.vec (setV "par_Dl" ρ (0 : Fin (c.n * c.dlO) → ℝ)) ((base c).dlFun c.dlO) c.n) ∧
    ∀ p : Fin (c.n * c.dlO) → ℝ,
      SX.val (setV "par_Dl" ρ p) ((base c).regDl c.dlO (Key.Dl.flags c)) c.n L.length =
      SX.val ρ ((base c).regDl c.dlO (Key.Dl.flags c)) c.n L.length := by
    rintro L rfl ρ
    exact C24_exact (base_wf hn ht) hF ρ
  replace h := h _ (symIdx_key (k := .Dl) rfl)
  have h1 := (h (setV "par_Dl" (env c s) fun i : Fin (c.n * c.dlO) => p i)).1
  rw [(h (env c s)).2, setV_set, symbol_val] at h1
  refine Eq.trans ?_ (h1.trans (congrArg₂ (· + ·) rfl ?_))
  · funext i
    rw [vec_dl hn ht _ hd, setV_ne (by simp), env_dqv s i.2]
    exact friction_congr (fun k hk => (parV_set s (k := .Dl) hd p (Base.coef_lt i.2 hk) (hp _)).symm) _
  · funext i
    rw [vec_dl hn ht _ hd, setV_ne (by simp), env_dqv s i.2]
    exact friction_congr (fun k hk => parV_zero (env c s) (k := .Dl) hd p (Base.coef_lt i.2 hk) (hp _)) _

theorem reg_K (he : c.elastic = true) (p : ℕ → ℝ) (hp : ∀ i, c.fK i = 0 → p i = c.K i) : springOf c p s.q s.x =
    SX.val (env c s) ((base c).regK c.ne c.kO (Key.K.flags c)) c.ne (symbolIdx (c.ne * c.kO) c.fK).length *ᵥ (fun j => p (symbolIdx (c.ne * c.kO) c.fK)[j]) +
      springOf c (numericPart c.fK p) s.q s.x := by
  have hF : ParSym "par_K" (c.ne * c.kO) (kmod c .K) (Key.K.flags c) := parSym_kmod (k := .K) he (size_K he)
  have h : ∀ L, Spec.symIdx (Key.K.flags c) (c.ne * c.kO) = L → ∀ ρ : Var → ℝ, (SX.vec ρ ((base c).kFun c.ne c.kO) c.ne =
      SX.val ρ ((base c).regK c.ne c.kO (Key.K.flags c)) c.ne L.length *ᵥ
        (fun j => ρ ⟨"par_K", L[j]⟩) +
      SX.vec (setV "par_K" ρ (0 : Fin (c.ne * c.kO) → ℝ)) ((base c).kFun c.ne c.kO) c.ne) ∧
    ∀ p : Fin (c.ne * c.kO) → ℝ,
      SX.val (setV "par_K" ρ p) ((base c).regK c.ne c.kO (Key.K.flags c)) c.ne L.length =
      SX.val ρ ((base c).regK c.ne c.kO (Key.K.flags c)) c.ne L.length := by
    rintro L rfl ρ
    exact C25_k (base_wf hn ht) (elastic_wf he) hF ρ
  replace h := h _ (symIdx_key (k := .K) (size_K he))
  have h1 := (h (setV "par_K" (env c s) fun i : Fin (c.ne * c.kO) => p i)).1
  rw [(h (env c s)).2, setV_set, symbol_val] at h1
  have hz : ∀ {e : Fin c.ne} {k : ℕ}, k < c.kO → e * c.kO + k < Key.K.size c := fun {e} {k} hk => by rw [size_K he]; exact Base.coef_lt e.2 hk
  refine Eq.trans ?_ (h1.trans (congrArg₂ (· + ·) rfl ?_))
  · funext e
    rw [vec_k hn ht _ he, setV_ne (by simp), setV_ne (by simp), env_x, env_q s (lt_of_lt_of_le e.2 (ne_le_n c)), ← size_K he]
    exact spring_congr (fun k hk => (parV_set s (k := .K) he p (hz hk) (hp _)).symm) _
  · funext e
    rw [vec_k hn ht _ he, setV_ne (by simp), setV_ne (by simp), env_x, env_q s (lt_of_lt_of_le e.2 (ne_le_n c)), ← size_K he]
    exact spring_congr (fun k hk => parV_zero (env c s) (k := .K) he p (hz hk) (hp _)) _

theorem reg_D (he : c.elastic = true) (p : ℕ → ℝ) (hp : ∀ i, c.fD i = 0 → p i = c.D i) : damperOf c p s.dq s.dx =
    SX.val (env c s) ((base c).regD c.ne c.dO (Key.D.flags c)) c.ne (symbolIdx (c.ne * c.dO) c.fD).length *ᵥ (fun j => p (symbolIdx (c.ne * c.dO) c.fD)[j]) +
      damperOf c (numericPart c.fD p) s.dq s.dx := by
  have hF : ParSym "par_D" (c.ne * c.dO) (kmod c .D) (Key.D.flags c) := parSym_kmod (k := .D) he (size_D he)
  have h : ∀ L, Spec.symIdx (Key.D.flags c) (c.ne * c.dO) = L → ∀ ρ : Var → ℝ, (SX.vec ρ ((base c).dFun c.ne c.dO) c.ne =
      SX.val ρ ((base c).regD c.ne c.dO (Key.D.flags c)) c.ne L.length *ᵥ
        (fun j => ρ ⟨"par_D", L[j]⟩) +
      SX.vec (setV "par_D" ρ (0 : Fin (c.ne * c.dO) → ℝ)) ((base c).dFun c.ne c.dO) c.ne) ∧
    ∀ p : Fin (c.ne * c.dO) → ℝ,
      SX.val (setV "par_D" ρ p) ((base c).regD c.ne c.dO (Key.D.flags c)) c.ne L.length =
      SX.val ρ ((base c).regD c.ne c.dO (Key.D.flags c)) c.ne L.length := by
    rintro L rfl ρ
    exact C25_d (base_wf hn ht) (elastic_wf he) hF ρ
  replace h := h _ (symIdx_key (k := .D) (size_D he))
  have h1 := (h (setV "par_D" (env c s) fun i : Fin (c.ne * c.dO) => p i)).1
  rw [(h (env c s)).2, setV_set, symbol_val] at h1
  have hz : ∀ {e : Fin c.ne} {k : ℕ}, k < c.dO → e * c.dO + k < Key.D.size c := fun {e} {k} hk => by rw [size_D he]; exact Base.coef_lt e.2 hk
  refine Eq.trans ?_ (h1.trans (congrArg₂ (· + ·) rfl ?_))
  · funext e
    rw [vec_d hn ht _ he, setV_ne (by simp), setV_ne (by simp), env_dx, env_dqv s (lt_of_lt_of_le e.2 (ne_le_n c)), ← size_D he]
    exact friction_congr (fun k hk => (parV_set s (k := .D) he p (hz hk) (hp _)).symm) _
  · funext e
    rw [vec_d hn ht _ he, setV_ne (by simp), setV_ne (by simp), env_dx, env_dqv s (lt_of_lt_of_le e.2 (ne_le_n c)), ← size_D he]
    exact friction_congr (fun k hk => parV_zero (env c s) (k := .D) he p (hz hk) (hp _)) _

omit hn ht in
theorem reg_Dm (he : c.elastic = true) (p : ℕ → ℝ) (hp : ∀ i, c.fDm i = 0 → p i = c.Dm i) : motorFrictionOf c p s.dx =
    SX.val (env c s) ((base c).regDm c.ne c.dmO (Key.Dm.flags c)) c.ne (symbolIdx (c.ne * c.dmO) c.fDm).length *ᵥ
        (fun j => p (symbolIdx (c.ne * c.dmO) c.fDm)[j]) + motorFrictionOf c (numericPart c.fDm p) s.dx := by
  have hF : ParSym "par_Dm" (c.ne * c.dmO) (kmod c .Dm) (Key.Dm.flags c) := parSym_kmod (k := .Dm) he (size_Dm he)
  have h : ∀ L, Spec.symIdx (Key.Dm.flags c) (c.ne * c.dmO) = L → ∀ ρ : Var → ℝ, (SX.vec ρ ((base c).dmFun c.ne c.dmO) c.ne =
      SX.val ρ ((base c).regDm c.ne c.dmO (Key.Dm.flags c)) c.ne L.length *ᵥ
        (fun j => ρ ⟨"par_Dm", L[j]⟩) +
      SX.vec (setV "par_Dm" ρ (0 : Fin (c.ne * c.dmO) → ℝ)) ((base c).dmFun c.ne c.dmO) c.ne) ∧
    ∀ p : Fin (c.ne * c.dmO) → ℝ,
      SX.val (setV "par_Dm" ρ p) ((base c).regDm c.ne c.dmO (Key.Dm.flags c)) c.ne L.length =
      SX.val ρ ((base c).regDm c.ne c.dmO (Key.Dm.flags c)) c.ne L.length := by
    rintro L rfl ρ
    exact C25_dm (elastic_wf he) hF ρ
  replace h := h _ (symIdx_key (k := .Dm) (size_Dm he))
  have h1 := (h (setV "par_Dm" (env c s) fun i : Fin (c.ne * c.dmO) => p i)).1
  rw [(h (env c s)).2, setV_set, symbol_val] at h1
  have hz : ∀ {e : Fin c.ne} {k : ℕ}, k < c.dmO → e * c.dmO + k < Key.Dm.size c := fun {e} {k} hk => by rw [size_Dm he]; exact Base.coef_lt e.2 hk
  refine Eq.trans ?_ (h1.trans (congrArg₂ (· + ·) rfl ?_))
  · funext e
    rw [vec_dm _ he, setV_ne (by simp), env_dx, ← size_Dm he]
    exact friction_congr (fun k hk => (parV_set s (k := .Dm) he p (hz hk) (hp _)).symm) _
  · funext e
    rw [vec_dm _ he, setV_ne (by simp), env_dx, ← size_Dm he]
    exact friction_congr (fun k hk => parV_zero (env c s) (k := .Dm) he p (hz hk) (hp _)) _

omit hn ht in
theorem reg_Mm (he : c.elastic = true) (p : ℕ → ℝ) (hp : ∀ i, c.fMm i = 0 → p i = c.Mm i) : gains c.ne 1 0 p *ᵥ s.ddx =
    SX.val (env c s) ((base c).regMm c.ne (Key.Mm.flags c)) c.ne (symbolIdx c.ne c.fMm).length *ᵥ (fun j => p (symbolIdx c.ne c.fMm)[j]) +
      gains c.ne 1 0 (numericPart c.fMm p) *ᵥ s.ddx := by
  have hF : ParSym "par_Mm" c.ne (kmod c .Mm) (Key.Mm.flags c) := parSym_kmod (k := .Mm) he (size_Mm he)
  have h : ∀ L, Spec.symIdx (Key.Mm.flags c) c.ne = L → ∀ ρ : Var → ℝ, (SX.val ρ ((base c).MmFun c.ne) c.ne c.ne *ᵥ (fun e => ρ ⟨"ddx", e⟩) =
      SX.val ρ ((base c).regMm c.ne (Key.Mm.flags c)) c.ne L.length *ᵥ
        (fun j => ρ ⟨"par_Mm", L[j]⟩) +
      SX.val (setV "par_Mm" ρ (0 : Fin c.ne → ℝ)) ((base c).MmFun c.ne) c.ne c.ne *ᵥ (fun e => ρ ⟨"ddx", e⟩)) ∧
    ∀ p : Fin c.ne → ℝ,
      SX.val (setV "par_Mm" ρ p) ((base c).regMm c.ne (Key.Mm.flags c)) c.ne L.length =
      SX.val ρ ((base c).regMm c.ne (Key.Mm.flags c)) c.ne L.length := by
    rintro L rfl ρ
    exact C25_Mm (elastic_wf he) hF ρ
  replace h := h _ (symIdx_key (k := .Mm) (size_Mm he))
  have h1 := (h (setV "par_Mm" (env c s) fun i : Fin c.ne => p i)).1
  have hM : ∀ ρ : Var → ℝ, SX.val ρ ((base c).MmFun c.ne) c.ne c.ne = gains c.ne 1 0 (parV ρ (kmod c .Mm)) := fun ρ => val_diagPar ρ _ _ _ _
  have hx : (fun e : Fin c.ne => setV "par_Mm" (env c s) (fun i : Fin c.ne => p i) ⟨"ddx", e⟩) = s.ddx := by
    funext e
    rw [setV_ne (by simp), env_ddx]
  rw [(h (env c s)).2, setV_set, symbol_val, hM, hM, hx] at h1
  have hz : ∀ {i : ℕ}, i < c.ne * 1 → i < Key.Mm.size c := fun {i} hi => by rw [size_Mm he]; omega
  rw [gains_congr (p := p) (p' := parV (setV "par_Mm" (env c s) fun i : Fin c.ne => p i) (kmod c .Mm)) (by decide), h1,
    gains_congr (p := parV (setV "par_Mm" (env c s) 0) (kmod c .Mm)) (p' := numericPart c.fMm p) (by decide)]
  · rfl
  · intro i hi
    rw [← size_Mm he]
    exact parV_zero (env c s) (k := .Mm) he p (hz hi) (hp _)
  · intro i hi
    rw [← size_Mm he]
    exact (parV_set s (k := .Mm) he p (hz hi) (hp _)).symm

end

/-! ## Kinematic regressors -/

/-- The symbol of a kinematic parameter. -/
def KinPar.var : KinPar → Var
  | .dh i => ⟨"DHtable", i⟩
  | .w2l i => ⟨"world2L0", i⟩
  | .ee i => ⟨"Ln2EE", i⟩

def KinPar.key : KinPar → Key
  | .dh _ => .DH
  | .w2l _ => .W2L
  | .ee _ => .EE

def KinPar.idx : KinPar → ℕ
  | .dh i | .w2l i | .ee i => i

theorem KinPar.var_eq (p : KinPar) : KinPar.var p = ⟨(KinPar.key p).sym, KinPar.idx p⟩ := by cases p <;> rfl

/-- The same state of the robot with another value of a kinematic parameter. -/
def State.setPar (s : State c) (p : KinPar) (t : ℝ) : State (setPar c p t) := ⟨s.q, s.dq, s.ddq, s.d3q, s.dqr, s.ddqr, s.w, s.x, s.dx, s.ddx⟩

theorem at_setPar (s : State c) (p : KinPar) (t : ℝ) (k : Key) (i : ℕ) :
    (State.setPar s p t).at k i = if k = KinPar.key p ∧ i = KinPar.idx p then t else s.at k i := by
  cases p <;> cases k <;>
    simp only [KinPar.key, KinPar.idx, reduceCtorEq, false_and, true_and, if_false] <;> first | rfl | (exact Function.update_apply _ _ _ _)

theorem env_setPar (s : State c) (p : KinPar) (t : ℝ) :
    env (setPar c p t) (State.setPar s p t) = Function.update (env c s) (KinPar.var p) t := by
  funext v
  obtain ⟨nm, i⟩ := v
  rw [Function.update_apply, KinPar.var_eq]
  by_cases h : ∃ k : Key, k.sym = nm
  · obtain ⟨k, rfl⟩ := h
    rw [env_key, env_key, at_setPar]
    by_cases hk : k = KinPar.key p ∧ i = KinPar.idx p
    · obtain ⟨h1, h2⟩ := hk
      rw [if_pos ⟨h1, h2⟩, if_pos (by rw [h1, h2])]
    · rw [if_neg hk, if_neg]
      intro e
      have h1 : k.sym = (KinPar.key p).sym := congrArg Var.name e
      have h2 : i = KinPar.idx p := congrArg Var.idx e
      exact hk ⟨Key.sym_inj h1, h2⟩
  · rw [if_neg]
    · unfold env
      rw [dif_neg h, dif_neg h]
    · intro e
      exact h ⟨_, (congrArg Var.name e).symm⟩

theorem retuned_setPar {p : KinPar} (hp : p ∈ kinPars c) (t : ℝ) : Retuned c (setPar c p t) := by
  have key : ∀ {k i j : ℕ} {f : ℕ → ℤ} {v : ℕ → ℝ}, j ∈ symbolIdx k f → f i = 0 → Function.update v j t i = v i := by
    intro k i j f v hj hi
    refine Function.update_of_ne ?_ _ _
    rintro rfl
    simp [symbolIdx, hi] at hj
  have hp' := hp
  simp only [kinPars, List.mem_append, List.mem_map] at hp
  rcases hp with (⟨j, hj, rfl⟩ | ⟨j, hj, rfl⟩) | ⟨j, hj, rfl⟩
  · exact { types := rfl, elastic := rfl, kO := rfl, dO := rfl, dmO := rfl, dlO := rfl, fdh := rfl, fw2l := rfl, fee := rfl, fg := rfl, fdyn := rfl,
            fdl := rfl, fK := rfl, fD := rfl, fDm := rfl, fMm := rfl, dh := fun i hi => key hj hi, w2l := fun _ _ => rfl, ee := fun _ _ => rfl,
            g := fun _ _ => rfl, dyn := fun _ _ => rfl, dl := fun _ _ => rfl, K := fun _ _ => rfl, D := fun _ _ => rfl, Dm := fun _ _ => rfl,
            Mm := fun _ _ => rfl }
  · exact { types := rfl, elastic := rfl, kO := rfl, dO := rfl, dmO := rfl, dlO := rfl, fdh := rfl, fw2l := rfl, fee := rfl, fg := rfl, fdyn := rfl,
            fdl := rfl, fK := rfl, fD := rfl, fDm := rfl, fMm := rfl, dh := fun _ _ => rfl, w2l := fun i hi => key hj hi, ee := fun _ _ => rfl,
            g := fun _ _ => rfl, dyn := fun _ _ => rfl, dl := fun _ _ => rfl, K := fun _ _ => rfl, D := fun _ _ => rfl, Dm := fun _ _ => rfl,
            Mm := fun _ _ => rfl }
  · exact { types := rfl, elastic := rfl, kO := rfl, dO := rfl, dmO := rfl, dlO := rfl, fdh := rfl, fw2l := rfl, fee := rfl, fg := rfl, fdyn := rfl,
            fdl := rfl, fK := rfl, fD := rfl, fDm := rfl, fMm := rfl, dh := fun _ _ => rfl, w2l := fun _ _ => rfl, ee := fun i hi => key hj hi,
            g := fun _ _ => rfl, dyn := fun _ _ => rfl, dl := fun _ _ => rfl, K := fun _ _ => rfl, D := fun _ _ => rfl, Dm := fun _ _ => rfl,
            Mm := fun _ _ => rfl }

theorem kinSymbols_eq : kinSymbols c.n (Key.DH.flags c) (Key.W2L.flags c) (Key.EE.flags c) = (kinPars c).map KinPar.var := by
  unfold kinSymbols kinPars
  have h1 : Spec.symIdx (Key.DH.flags c) (c.n * 4) = symbolIdx (c.n * 4) c.fdh := symIdx_key (k := .DH) rfl
  have h2 : Spec.symIdx (Key.W2L.flags c) 6 = symbolIdx 6 c.fw2l := symIdx_key (k := .W2L) rfl
  have h3 : Spec.symIdx (Key.EE.flags c) 6 = symbolIdx 6 c.fee := symIdx_key (k := .EE) rfl
  rw [h1, h2, h3]
  simp only [List.map_append, List.map_map]
  rfl

variable [Fl]

theorem unit_setPar {p : KinPar} (hp : p ∈ kinPars c) (t : ℝ) (h : UnitNumeric c) : UnitNumeric (setPar c p t) := by
  have R := retuned_setPar hp t
  intro a ha
  refine h a ?_
  rcases ha with ⟨i, hi, h1, h2⟩ | ⟨i, hi, hk, h1, h2⟩ | ⟨i, h3, h6, ⟨h1, h2⟩ | ⟨h1, h2⟩⟩
  · exact .inl ⟨i, hi, h1, by rw [h2, R.dh _ h1]⟩
  · exact .inr (.inl ⟨i, hi, hk, h1, by rw [h2, R.dh _ h1]⟩)
  · exact .inr (.inr ⟨i, h3, h6, .inl ⟨h1, by rw [h2, R.w2l _ h1]⟩⟩)
  · exact .inr (.inr ⟨i, h3, h6, .inr ⟨h1, by rw [h2, R.ee _ h1]⟩⟩)

section

variable (hn : 0 < c.n) (ht : Typed c) (hU : UnitNumeric c) (s : State c)
include hn ht hU

theorem Jee_setPar {p : KinPar} (hp : p ∈ kinPars c) (t : ℝ) :
    SX.val (Function.update (env c s) (KinPar.var p) t) (base c).Jee 6 c.n = jacobianOf (toolFrame (setPar c p t)) s.q := by
  rw [← env_setPar, ← (retuned_setPar hp t).base]
  exact val_Jee (c := setPar c p t) hn ht (State.setPar s p t) (unit_setPar hp t hU)

omit hn ht hU in
theorem env_getPar (p : KinPar) : env c s (KinPar.var p) = getPar c p := by
  rw [KinPar.var_eq, env_par s (by cases p <;> rfl)]
  cases p <;> rfl

theorem reg_Jdq (j : Fin (kinPars c).length) (a : Fin 6) :
    HasDerivAt (fun t => (jacobianOf (toolFrame (setPar c (kinPars c)[j] t)) s.q *ᵥ s.dq) a)
      (SX.val (env c s) ((base c).regJdq (Key.DH.flags c) (Key.W2L.flags c) (Key.EE.flags c)) 6 (kinPars c).length a j) (getPar c (kinPars c)[j]) := by
  have h : ∀ (L : List Var), kinSymbols c.n (Key.DH.flags c) (Key.W2L.flags c) (Key.EE.flags c) = L → ∀ j : Fin L.length,
      HasDerivAt (fun t => (SX.val (Function.update (env c s) L[j] t) (base c).Jee 6 c.n *ᵥ fun j => env c s ⟨"dq", j⟩) a)
        (SX.val (env c s) ((base c).regJdq (Key.DH.flags c) (Key.W2L.flags c) (Key.EE.flags c)) 6 L.length a j) (env c s L[j]) := by
    rintro L rfl j
    exact C26_Jdq (base_wf hn ht) (parSym_kmod (k := .DH) trivial rfl) (parSym_kmod (k := .W2L) trivial rfl) (parSym_kmod (k := .EE) trivial rfl) (env c s) j a
  have h1 := h _ kinSymbols_eq (Fin.cast (List.length_map _).symm j)
  have e : ((kinPars c).map KinPar.var)[Fin.cast (List.length_map KinPar.var).symm j] = KinPar.var (kinPars c)[j] := List.getElem_map _
  have hq : (fun j : Fin c.n => env c s ⟨"dq", j⟩) = s.dq := funext fun j => env_dqv s j.2
  rw [e, env_getPar, hq] at h1
  refine Eq.mp (congrArg (fun f => HasDerivAt f _ _) (funext fun t => ?_)) h1
  exact congrArg (fun A : Matrix (Fin 6) (Fin c.n) ℝ => (A *ᵥ s.dq) a) (Jee_setPar hn ht hU s (List.getElem_mem j.2 : (kinPars c)[j] ∈ kinPars c) t)

theorem reg_JTw (j : Fin (kinPars c).length) (a : Fin c.n) :
    HasDerivAt (fun t => ((jacobianOf (toolFrame (setPar c (kinPars c)[j] t)) s.q)ᵀ *ᵥ s.w) a)
      (SX.val (env c s) ((base c).regJTw (Key.DH.flags c) (Key.W2L.flags c) (Key.EE.flags c)) c.n (kinPars c).length a j) (getPar c (kinPars c)[j]) := by
  have h : ∀ (L : List Var), kinSymbols c.n (Key.DH.flags c) (Key.W2L.flags c) (Key.EE.flags c) = L → ∀ j : Fin L.length,
      HasDerivAt (fun t => ((SX.val (Function.update (env c s) L[j] t) (base c).Jee 6 c.n)ᵀ *ᵥ fun j : Fin 6 => env c s ⟨"w", j⟩) a)
        (SX.val (env c s) ((base c).regJTw (Key.DH.flags c) (Key.W2L.flags c) (Key.EE.flags c)) c.n L.length a j) (env c s L[j]) := by
    rintro L rfl j
    exact C26_JTw (base_wf hn ht) (parSym_kmod (k := .DH) trivial rfl) (parSym_kmod (k := .W2L) trivial rfl) (parSym_kmod (k := .EE) trivial rfl) (env c s) j a
  have h1 := h _ kinSymbols_eq (Fin.cast (List.length_map _).symm j)
  have e : ((kinPars c).map KinPar.var)[Fin.cast (List.length_map KinPar.var).symm j] = KinPar.var (kinPars c)[j] := List.getElem_map _
  have hq : (fun j : Fin 6 => env c s ⟨"w", j⟩) = s.w := funext fun j => env_w s j
  rw [e, env_getPar, hq] at h1
  refine Eq.mp (congrArg (fun f => HasDerivAt f _ _) (funext fun t => ?_)) h1
  exact congrArg (fun A : Matrix (Fin 6) (Fin c.n) ℝ => (Aᵀ *ᵥ s.w) a) (Jee_setPar hn ht hU s (List.getElem_mem j.2 : (kinPars c)[j] ∈ kinPars c) t)

end

end

end Thunder
