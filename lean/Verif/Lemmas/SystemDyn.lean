import Verif.Lemmas.SystemVal
import Verif.Props.Regressor

/-!
# The Jacobians and the dynamics of the mechanism of the file
-/

open scoped Classical
open Matrix

namespace Thunder

noncomputable section

open Spec Robot SX

set_option linter.unusedSectionVars false

/-! ## Jacobians -/

theorem point_zero (T : Matrix (Fin 4) (Fin 4) ℝ) : point T 0 = pos T := by unfold point; rw [mulVec_zero, add_zero]

/-- The geometric Jacobian is the only matrix with the defining properties. -/
theorem eq_jacobianAt {n : ℕ} {T : (Fin n → ℝ) → Matrix (Fin 4) (Fin 4) ℝ} {p : Fin 3 → ℝ} {q : Fin n → ℝ} {J : Matrix (Fin 6) (Fin n) ℝ}
    (hR : IsRot (rot (T q))) (hl : ∀ (j : Fin n) (a : Fin 3), HasDerivAt (fun t => point (T (Function.update q j t)) p a) (lin J a j) (q j))
    (ha : IsAngularJacobian T q J) : J = jacobianAt T p q := by
  ext a j
  unfold jacobianAt
  rw [Matrix.of_apply]
  split_ifs with h
  · rw [(hl j ⟨a, h⟩).deriv]
    rfl
  · have e : (Matrix.of fun x y => deriv (fun t => rot (T (Function.update q j t)) x y) (q j)) = hat (fun c => angRows J c j) * rot (T q) := by
      ext x y
      rw [Matrix.of_apply, (ha j x y).deriv]
    rw [e, Matrix.mul_assoc, hR.orth', Matrix.mul_one, vee_hat]
    unfold angRows
    rw [Matrix.submatrix_apply, id]
    congr 1
    refine Fin.ext ?_
    have := a.2
    show (a : ℕ) = 3 + (a - 3)
    omega

theorem eq_jacobianOf {n : ℕ} {T : (Fin n → ℝ) → Matrix (Fin 4) (Fin 4) ℝ} {q : Fin n → ℝ} {J : Matrix (Fin 6) (Fin n) ℝ}
    (hR : IsRot (rot (T q))) (hl : IsLinearJacobian T q J) (ha : IsAngularJacobian T q J) : J = jacobianOf T q :=
  eq_jacobianAt hR (fun j a => by simp only [point_zero]; exact hl j a) ha

variable {c : Conf} [Fl]

section

variable (hn : 0 < c.n) (ht : Typed c) (s : State c)
include hn ht

theorem frames_q (q : Fin c.n → ℝ) {i : ℕ} (hi : i ≤ c.n) : SX.val (setV "q" (env c s) q) ((base c).T0 i) 4 4 = linkFrame c q i := by
  have := val_T0 hn ht { s with q := q } hi
  rwa [← setV_q] at this

theorem tool_q (q : Fin c.n → ℝ) : SX.val (setV "q" (env c s) q) (base c).T0ee 4 4 = toolFrame c q := by
  have := val_T0ee hn ht { s with q := q }
  rwa [← setV_q] at this

omit hn ht in
theorem setV_q_self : setV "q" (env c s) s.q = env c s := setV_q s s.q

variable (hU : UnitNumeric c)
include hU

theorem jac_link {i : ℕ} (hi : i < c.n) :
    IsLinearJacobian (fun q => linkFrame c q (i + 1)) s.q (SX.val (env c s) ((base c).J i) 6 c.n) ∧
    IsAngularJacobian (fun q => linkFrame c q (i + 1)) s.q (SX.val (env c s) ((base c).J i) 6 c.n) := by
  have h1 : IsLinearJacobian (fun q : Fin c.n → ℝ => SX.val (setV "q" (env c s) q) ((base c).T0 (i + 1)) 4 4) s.q
      (SX.val (setV "q" (env c s) s.q) ((base c).J i) 6 c.n) := C03_linear (base_wf hn ht) (base_unit hU) (env c s) hi s.q
  have h2 : IsAngularJacobian (fun q : Fin c.n → ℝ => SX.val (setV "q" (env c s) q) ((base c).T0 (i + 1)) 4 4) s.q
      (SX.val (setV "q" (env c s) s.q) ((base c).J i) 6 c.n) := C04_angular (base_wf hn ht) (base_unit hU) (env c s) hi s.q
  rw [show (fun q : Fin c.n → ℝ => SX.val (setV "q" (env c s) q) ((base c).T0 (i + 1)) 4 4) = fun q => linkFrame c q (i + 1) from
    funext fun q => frames_q hn ht s q hi, setV_q_self] at h1 h2
  exact ⟨h1, h2⟩

theorem jac_tool :
    IsLinearJacobian (toolFrame c) s.q (SX.val (env c s) (base c).Jee 6 c.n) ∧ IsAngularJacobian (toolFrame c) s.q (SX.val (env c s) (base c).Jee 6 c.n) := by
  have h : IsLinearJacobian (fun q : Fin c.n → ℝ => SX.val (setV "q" (env c s) q) (base c).T0ee 4 4) s.q
        (SX.val (setV "q" (env c s) s.q) (base c).Jee 6 c.n) ∧
      IsAngularJacobian (fun q : Fin c.n → ℝ => SX.val (setV "q" (env c s) q) (base c).T0ee 4 4) s.q
        (SX.val (setV "q" (env c s) s.q) (base c).Jee 6 c.n) := C05_ee (base_wf hn ht) (base_unit hU) (env c s) s.q
  rw [show (fun q : Fin c.n → ℝ => SX.val (setV "q" (env c s) q) (base c).T0ee 4 4) = toolFrame c from funext fun q => tool_q hn ht s q,
    setV_q_self] at h
  exact h

theorem val_J {i : ℕ} (hi : i < c.n) : SX.val (env c s) ((base c).J i) 6 c.n = jacobianOf (fun q => linkFrame c q (i + 1)) s.q := by
  obtain ⟨h1, h2⟩ := jac_link hn ht s hU hi
  exact eq_jacobianOf ((isRigid_linkFrame hn ht hU s.q s).1 (i + 1) hi).rot h1 h2

theorem val_Jee : SX.val (env c s) (base c).Jee 6 c.n = jacobianOf (toolFrame c) s.q := by
  obtain ⟨h1, h2⟩ := jac_tool hn ht s hU
  exact eq_jacobianOf (isRigid_linkFrame hn ht hU s.q s).2.rot h1 h2

/-! ## Inertial parameters -/

omit hn ht hU in
omit [Fl] in
theorem dynV_env {k : ℕ} (hk : k < 10 * c.n) : (base c).dynV (env c s) k = c.dyn k :=
  eval_par s (k := .DYN) rfl trivial (show k < c.n * 10 by omega)

omit hn ht hU in
omit [Fl] in
theorem gV_env : SX.vec (env c s) (base c).g 3 = fun k : Fin 3 => c.g k := by
  funext k
  exact eval_par s (k := .grav) rfl trivial k.2

end

theorem mass_congr {p p' : ℕ → ℝ} {n i : ℕ} (h : ∀ k < 10 * n, p k = p' k) (hi : i < n) : mass p i = mass p' i := h _ (by omega)
theorem com_congr {p p' : ℕ → ℝ} {n i : ℕ} (h : ∀ k < 10 * n, p k = p' k) (hi : i < n) : com p i = com p' i := by
  unfold com; rw [h _ (by omega), h _ (by omega), h _ (by omega)]
theorem inertia_congr {p p' : ℕ → ℝ} {n i : ℕ} (h : ∀ k < 10 * n, p k = p' k) (hi : i < n) : inertia p i = inertia p' i := by
  unfold inertia; rw [h _ (by omega), h _ (by omega), h _ (by omega), h _ (by omega), h _ (by omega), h _ (by omega)]
theorem reg_congr {p p' : ℕ → ℝ} {n k : ℕ} (h : ∀ k < 10 * n, p k = p' k) (hk : k < 10 * n) : reg p k = reg p' k := by
  unfold reg
  rw [mass_congr h (by omega), com_congr h (by omega), inertia_congr h (by omega)]
theorem kineticEnergy_congr {p p' : ℕ → ℝ} {n k : ℕ} {T T' : ℕ → (Fin k → ℝ) → Matrix (Fin 4) (Fin 4) ℝ} (h : ∀ k < 10 * n, p k = p' k)
    (hT : ∀ i < n, T i = T' i) (q v : Fin k → ℝ) : kineticEnergy p n T q v = kineticEnergy p' n T' q v := by
  refine Finset.sum_congr rfl fun i hi => ?_
  have hi := Finset.mem_range.1 hi
  rw [mass_congr h hi, com_congr h hi, inertia_congr h hi, hT i hi]
theorem potential_congr {p p' : ℕ → ℝ} {g : Fin 3 → ℝ} {n : ℕ} {T T' : ℕ → Matrix (Fin 4) (Fin 4) ℝ} (h : ∀ k < 10 * n, p k = p' k)
    (hT : ∀ i < n, T i = T' i) : potential p g n T = potential p' g n T' := by
  unfold potential
  congr 1
  refine Finset.sum_congr rfl fun i hi => ?_
  have hi := Finset.mem_range.1 hi
  rw [mass_congr h hi, com_congr h hi, hT i hi]

/-! ## Energies and dynamics -/

section

variable (hn : 0 < c.n) (ht : Typed c) (s : State c)
include hn ht

theorem kinetic_env (q v : Fin c.n → ℝ) :
    kineticEnergy ((base c).dynV (env c s)) c.n (fun i q => SX.val (setV "q" (env c s) q) ((base c).T0 (i + 1)) 4 4) q v = kineticOf c q v :=
  kineticEnergy_congr (fun _ hk => dynV_env s hk) (fun _ hi => funext fun q => frames_q hn ht s q hi) q v

theorem potential_env (q : Fin c.n → ℝ) :
    potential ((base c).dynV (env c s)) (SX.vec (env c s) (base c).g 3) c.n
      (fun i => SX.val (setV "q" (env c s) q) ((base c).T0 (i + 1)) 4 4) = potentialOf c q := by
  rw [gV_env]
  exact potential_congr (fun _ hk => dynV_env s hk) fun _ hi => frames_q hn ht s q hi

variable (hU : UnitNumeric c)
include hU

/-- The kinetic energy of the links is that of the mass matrix. -/
theorem kineticOf_eq (q v : Fin c.n → ℝ) : kineticOf c q v = 1 / 2 * (v ⬝ᵥ SX.val (env c { s with q := q }) (base c).M c.n c.n *ᵥ v) := by
  have : kineticEnergy ((base c).dynV (env c s)) c.n (fun i q => SX.val (setV "q" (env c s) q) ((base c).T0 (i + 1)) 4 4) q v =
      1 / 2 * (v ⬝ᵥ SX.val (setV "q" (env c s) q) (base c).M c.n c.n *ᵥ v) := C12_energy (base_wf hn ht) (base_unit hU) (env c s) q v
  rw [kinetic_env hn ht s, setV_q] at this
  exact this

end

theorem quadratic_eq {n : ℕ} {A : Matrix (Fin n) (Fin n) ℝ} (hA : Aᵀ = A) {f : (Fin n → ℝ) → ℝ} (hf : ∀ v, f v = 1 / 2 * (v ⬝ᵥ A *ᵥ v)) :
    A = quadratic f := by
  ext i j
  have h : ∀ i j, (Pi.single i (1 : ℝ) : Fin n → ℝ) ⬝ᵥ A *ᵥ Pi.single j (1 : ℝ) = A i j := by
    intro i j
    rw [mulVec_single_one, single_one_dotProduct]
    rfl
  have hs : A j i = A i j := congrFun (congrFun hA i) j
  unfold quadratic
  rw [Matrix.of_apply, hf, hf, hf, mulVec_add, add_dotProduct, dotProduct_add, dotProduct_add, h, h, h, h, hs]
  ring

section

variable (hn : 0 < c.n) (ht : Typed c) (hU : UnitNumeric c) (s : State c)
include hn ht hU

theorem val_M : SX.val (env c s) (base c).M c.n c.n = massOf c s.q :=
  quadratic_eq (C10_symm (B := base c) (env c s)) fun v => kineticOf_eq hn ht s hU s.q v

theorem M_q (q : Fin c.n → ℝ) : SX.val (setV "q" (env c s) q) (base c).M c.n c.n = massOf c q := by
  rw [setV_q]
  exact val_M hn ht hU _

include s in
theorem diff_massOf (q : Fin c.n → ℝ) (h j k : Fin c.n) : DifferentiableAt ℝ (fun x => massOf c (Function.update q k x) h j) (q k) := by
  have h0 : DifferentiableAt ℝ (fun x => SX.val (setV "q" (env c s) (Function.update q k x)) (base c).M c.n c.n h j) (q k) :=
    (C13_christoffel (base_wf hn ht) (env c s) q).1 h j k
  simpa only [M_q hn ht hU s] using h0

theorem env_dq (k : Fin c.n) : env c s ⟨"dq", k⟩ = s.dq k := by
  have := env_key s .dq k
  simp only [Spec.State.at, dif_pos k.2] at this
  exact this

theorem val_C : SX.val (env c s) (base c).C c.n c.n = coriolisOf c s.q s.dq := by
  have h : ∀ h j : Fin c.n, SX.val (setV "q" (env c s) s.q) (base c).C c.n c.n h j = 1 / 2 * ∑ k : Fin c.n,
      (deriv (fun x => SX.val (setV "q" (env c s) (Function.update s.q k x)) (base c).M c.n c.n h j) (s.q k) +
       deriv (fun x => SX.val (setV "q" (env c s) (Function.update s.q j x)) (base c).M c.n c.n h k) (s.q j) -
       deriv (fun x => SX.val (setV "q" (env c s) (Function.update s.q h x)) (base c).M c.n c.n j k) (s.q h)) * env c s ⟨"dq", k⟩ :=
    (C13_christoffel (base_wf hn ht) (env c s) s.q).2
  simp only [M_q hn ht hU s, setV_q_self, env_dq hn ht hU s] at h
  ext a b
  exact h a b

theorem val_Cstd : SX.val (env c s) (base c).Cstd c.n c.n = coriolisOf c s.q s.dq := by
  rw [← val_C hn ht hU]
  exact C14_std (base_wf hn ht) (env c s)

theorem grad_q (q : Fin c.n → ℝ) (j : Fin c.n) :
    HasDerivAt (fun x => potentialOf c (Function.update q j x)) (SX.vec (env c { s with q := q }) (base c).G c.n j) (q j) := by
  have h : HasDerivAt (fun x => potential ((base c).dynV (env c s)) (SX.vec (env c s) (base c).g 3) c.n
        fun i => SX.val (setV "q" (env c s) (Function.update q j x)) ((base c).T0 (i + 1)) 4 4)
      (SX.vec (setV "q" (env c s) q) (base c).G c.n j) (q j) := C16_gradient (base_wf hn ht) (base_unit hU) (env c s) q j
  simp only [potential_env hn ht s] at h
  rwa [setV_q] at h

theorem vec_G : SX.vec (env c s) (base c).G c.n = gravityOf c s.q := funext fun j => (grad_q hn ht hU s s.q j).deriv.symm

/-- The Jacobian of the centre of mass. -/
theorem val_Jcm {i : ℕ} (hi : i < c.n) :
    (∀ (j : Fin c.n) (a : Fin 3), HasDerivAt (fun t => point (linkFrame c (Function.update s.q j t) (i + 1)) (com c.dyn i) a)
      (lin (SX.val (env c s) ((base c).Jcm i) 6 c.n) a j) (s.q j)) ∧
    SX.val (env c s) ((base c).Jcm i) 6 c.n = jacobianAt (fun q => linkFrame c q (i + 1)) (com c.dyn i) s.q := by
  have hcom : com ((base c).dynV (env c s)) i = com c.dyn i := com_congr (fun _ hk => dynV_env s hk) hi
  have tw : ∀ j : Fin c.n, IsTwist (fun t => linkFrame c (Function.update s.q j t) (i + 1)) (com c.dyn i) (s.q j)
      ((base c).jv (env c s) i *ᵥ (Pi.single j 1 : Fin c.n → ℝ)) ((base c).jw (env c s) i *ᵥ (Pi.single j 1 : Fin c.n → ℝ)) := by
    intro j
    have hq : ∀ k : Fin c.n, HasDerivAt (fun t => Function.update s.q j t k) ((Pi.single j 1 : Fin c.n → ℝ) k) (s.q j) := by
      intro k
      by_cases hk : k = j
      · subst hk
        simp only [Function.update_self, Pi.single_eq_same]
        exact hasDerivAt_id _
      · simp only [Function.update_of_ne hk, Pi.single_eq_of_ne hk]
        exact hasDerivAt_const _ _
    have h : IsTwist (fun t => SX.val (setV "q" (env c s) (Function.update s.q j t)) ((base c).T0 (i + 1)) 4 4) (com ((base c).dynV (env c s)) i) (s.q j)
        ((base c).jv (setV "q" (env c s) (Function.update s.q j (s.q j))) i *ᵥ (Pi.single j 1 : Fin c.n → ℝ))
        ((base c).jw (setV "q" (env c s) (Function.update s.q j (s.q j))) i *ᵥ (Pi.single j 1 : Fin c.n → ℝ)) :=
      Base.isTwist (env c s) (base_wf hn ht) (base_unit hU) hq hi
    rw [hcom, Function.update_eq_self, setV_q_self] at h
    simpa only [frames_q hn ht s _ hi] using h
  have hrows : ((base c).Jcv i).rows = 3 := rfl
  have el : ∀ (a : Fin 3) (j : Fin c.n), lin (SX.val (env c s) ((base c).Jcm i) 6 c.n) a j = ((base c).jv (env c s) i *ᵥ (Pi.single j 1 : Fin c.n → ℝ)) a := by
    intro a j
    refine Eq.trans ?_ (congrFun (mulVec_single_one (M := show Matrix (Fin 3) (Fin c.n) ℝ from (base c).jv (env c s) i) (j := j)) a).symm
    show Expr.eval (env c s) (((base c).Jcm i).e (a : ℕ) j) = Expr.eval (env c s) (((base c).Jcv i).e a j)
    have h3 : (a : ℕ) < ((base c).Jcv i).rows := by rw [hrows]; exact a.2
    simp only [Base.Jcm, SX.vcat, if_pos h3]
  have ea : ∀ (a : Fin 3) (j : Fin c.n), angRows (SX.val (env c s) ((base c).Jcm i) 6 c.n) a j = ((base c).jw (env c s) i *ᵥ (Pi.single j 1 : Fin c.n → ℝ)) a := by
    intro a j
    refine Eq.trans ?_ (congrFun (mulVec_single_one (M := show Matrix (Fin 3) (Fin c.n) ℝ from (base c).jw (env c s) i) (j := j)) a).symm
    show Expr.eval (env c s) (((base c).Jcm i).e (3 + (a : ℕ)) j) = Expr.eval (env c s) (((base c).Jcw i).e a j)
    have h3 : ¬ 3 + (a : ℕ) < ((base c).Jcv i).rows := by rw [hrows]; omega
    simp only [Base.Jcm, SX.vcat]
    rw [if_neg h3, hrows, Nat.add_sub_cancel_left]
  have hl : ∀ (j : Fin c.n) (a : Fin 3), HasDerivAt (fun t => point (linkFrame c (Function.update s.q j t) (i + 1)) (com c.dyn i) a)
      (lin (SX.val (env c s) ((base c).Jcm i) 6 c.n) a j) (s.q j) := fun j a => by rw [el]; exact (tw j).lin a
  refine ⟨hl, eq_jacobianAt ((isRigid_linkFrame hn ht hU s.q s).1 (i + 1) hi).rot hl fun j a b => ?_⟩
  have := (tw j).ang a b
  rw [Function.update_eq_self] at this
  rwa [show (fun d => angRows (SX.val (env c s) ((base c).Jcm i) 6 c.n) d j) = _ from funext fun d => ea d j]

/-! ## Along trajectories -/

section

variable {q dq ddq : ℝ → Fin c.n → ℝ} {t : ℝ}

theorem Jee_q (q : Fin c.n → ℝ) : SX.val (setV "q" (env c s) q) (base c).Jee 6 c.n = jacobianOf (toolFrame c) q := by
  rw [setV_q]
  exact val_Jee hn ht _ hU

theorem G_q (q : Fin c.n → ℝ) : SX.vec (setV "q" (env c s) q) (base c).G c.n = gravityOf c q := by
  rw [setV_q]
  exact vec_G hn ht hU _

theorem C_q (q dq : Fin c.n → ℝ) : SX.val (setV "q" (setV "dq" (env c s) dq) q) (base c).C c.n c.n = coriolisOf c q dq := by
  rw [setV_dq, setV_q]
  exact val_C hn ht hU _

theorem Jee_dot (hq0 : q t = s.q) (hq : ∀ i, HasDerivAt (fun x => q x i) (s.dq i) t) (a : Fin 6) (b : Fin c.n) :
    HasDerivAt (fun x => jacobianOf (toolFrame c) (q x) a b) (SX.val (env c s) (base c).JeeDot 6 c.n a b) t := by
  have h : HasDerivAt (fun x => SX.val (setV "q" (env c s) (q x)) (base c).Jee 6 c.n a b)
      (SX.val (setV "q" (setV "dq" (env c s) s.dq) (q t)) (base c).JeeDot 6 c.n a b) t := C07_dot (base_wf hn ht) (env c s) hq a b
  rw [setV_dq, hq0, setV_q] at h
  simpa only [Jee_q hn ht hU s] using h

theorem Jee_ddot (hq0 : q t = s.q) (hdq0 : dq t = s.dq) (hq : ∀ x i, HasDerivAt (fun x => q x i) (dq x i) x)
    (hdq : ∀ i, HasDerivAt (fun x => dq x i) (s.ddq i) t) (a : Fin 6) (b : Fin c.n) :
    HasDerivAt (deriv fun x => jacobianOf (toolFrame c) (q x) a b) (SX.val (env c s) (base c).JeeDdot 6 c.n a b) t := by
  have h : HasDerivAt (deriv fun x => SX.val (setV "q" (env c s) (q x)) (base c).Jee 6 c.n a b)
      (SX.val (setV "q" (setV "dq" (setV "ddq" (env c s) s.ddq) (dq t)) (q t)) (base c).JeeDdot 6 c.n a b) t :=
    C07_ddot (base_wf hn ht) (env c s) hq hdq a b
  rw [setV_ddq, hdq0, setV_dq, hq0, setV_q] at h
  simpa only [Jee_q hn ht hU s] using h

theorem MGC_dot (hq0 : q t = s.q) (hdq0 : dq t = s.dq) (hq : ∀ i, HasDerivAt (fun x => q x i) (dq t i) t)
    (hdq : ∀ i, HasDerivAt (fun x => dq x i) (s.ddq i) t) (a b : Fin c.n) :
    HasDerivAt (fun x => massOf c (q x) a b) (SX.val (env c s) (base c).Mdot c.n c.n a b) t ∧
    HasDerivAt (fun x => gravityOf c (q x) a) (SX.val (env c s) (base c).Gdot c.n 1 a 0) t ∧
    HasDerivAt (fun x => coriolisOf c (q x) (dq x) a b) (SX.val (env c s) (base c).Cdot c.n c.n a b) t := by
  have h : HasDerivAt (fun x => SX.val (setV "q" (env c s) (q x)) (base c).M c.n c.n a b)
        (SX.val (setV "q" (setV "dq" (env c s) (dq t)) (q t)) (base c).Mdot c.n c.n a b) t ∧
      HasDerivAt (fun x => SX.vec (setV "q" (env c s) (q x)) (base c).G c.n a)
        (SX.val (setV "q" (setV "dq" (env c s) (dq t)) (q t)) (base c).Gdot c.n 1 a 0) t ∧
      HasDerivAt (fun x => SX.val (setV "q" (setV "dq" (env c s) (dq x)) (q x)) (base c).C c.n c.n a b)
        (SX.val (setV "q" (setV "dq" (setV "ddq" (env c s) s.ddq) (dq t)) (q t)) (base c).Cdot c.n c.n a b) t :=
    C18_dot (base_wf hn ht) (env c s) hq hdq a b
  simp only [setV_ddq, setV_dq, setV_q, hdq0, hq0] at h
  simp only [val_M hn ht hU, vec_G hn ht hU, val_C hn ht hU] at h
  exact h

theorem MGC_ddot (hq0 : q t = s.q) (hdq0 : dq t = s.dq) (hddq0 : ddq t = s.ddq) (hq : ∀ x i, HasDerivAt (fun x => q x i) (dq x i) x)
    (hdq : ∀ x i, HasDerivAt (fun x => dq x i) (ddq x i) x) (hddq : ∀ i, HasDerivAt (fun x => ddq x i) (s.d3q i) t) (a b : Fin c.n) :
    HasDerivAt (deriv fun x => massOf c (q x) a b) (SX.val (env c s) (base c).Mddot c.n c.n a b) t ∧
    HasDerivAt (deriv fun x => gravityOf c (q x) a) (SX.val (env c s) (base c).Gddot c.n 1 a 0) t ∧
    HasDerivAt (deriv fun x => coriolisOf c (q x) (dq x) a b) (SX.val (env c s) (base c).Cddot c.n c.n a b) t := by
  have h : HasDerivAt (deriv fun x => SX.val (setV "q" (env c s) (q x)) (base c).M c.n c.n a b)
        (SX.val (setV "q" (setV "dq" (setV "ddq" (env c s) (ddq t)) (dq t)) (q t)) (base c).Mddot c.n c.n a b) t ∧
      HasDerivAt (deriv fun x => SX.vec (setV "q" (env c s) (q x)) (base c).G c.n a)
        (SX.val (setV "q" (setV "dq" (setV "ddq" (env c s) (ddq t)) (dq t)) (q t)) (base c).Gddot c.n 1 a 0) t ∧
      HasDerivAt (deriv fun x => SX.val (setV "q" (setV "dq" (env c s) (dq x)) (q x)) (base c).C c.n c.n a b)
        (SX.val (setV "q" (setV "dq" (setV "ddq" (setV "d3q" (env c s) s.d3q) (ddq t)) (dq t)) (q t)) (base c).Cddot c.n c.n a b) t :=
    C18_ddot (base_wf hn ht) (env c s) hq hdq hddq a b
  simp only [setV_d3q, setV_ddq, setV_dq, setV_q, hddq0, hdq0, hq0, val_M hn ht hU, vec_G hn ht hU, val_C hn ht hU] at h
  exact h

include s in
/-- The equations of motion. -/
theorem lagrange_env {ddq : Fin c.n → ℝ} (hq : ∀ x i, HasDerivAt (fun x => q x i) (dq x i) x) (hdq : ∀ i, HasDerivAt (fun x => dq x i) (ddq i) t) :
    ∃ (P : ℝ → Fin c.n → ℝ) (Q : Fin c.n → ℝ),
      (∀ x k, HasDerivAt (fun y => lagrangianOf c (q x) (Function.update (dq x) k y)) (P x k) (dq x k)) ∧
      (∀ k, HasDerivAt (fun y => lagrangianOf c (Function.update (q t) k y) (dq t)) (Q k) (q t k)) ∧
      ∀ k, HasDerivAt (fun x => P x k) ((massOf c (q t) *ᵥ ddq + coriolisOf c (q t) (dq t) *ᵥ dq t + gravityOf c (q t)) k + Q k) t := by
  have hL : lagrangian ((base c).dynV (env c s)) (SX.vec (env c s) (base c).g 3) c.n
      (fun i q => SX.val (setV "q" (env c s) q) ((base c).T0 (i + 1)) 4 4) = lagrangianOf c := by
    funext q v
    unfold lagrangian lagrangianOf
    rw [kinetic_env hn ht s, potential_env hn ht s]
  have h : ∃ (P : ℝ → Fin c.n → ℝ) (Q : Fin c.n → ℝ),
      (∀ x k, HasDerivAt (fun y => lagrangian ((base c).dynV (env c s)) (SX.vec (env c s) (base c).g 3) c.n
        (fun i q => SX.val (setV "q" (env c s) q) ((base c).T0 (i + 1)) 4 4) (q x) (Function.update (dq x) k y)) (P x k) (dq x k)) ∧
      (∀ k, HasDerivAt (fun y => lagrangian ((base c).dynV (env c s)) (SX.vec (env c s) (base c).g 3) c.n
        (fun i q => SX.val (setV "q" (env c s) q) ((base c).T0 (i + 1)) 4 4) (Function.update (q t) k y) (dq t)) (Q k) (q t k)) ∧
      ∀ k, HasDerivAt (fun x => P x k)
        ((SX.val (setV "q" (setV "dq" (env c s) (dq t)) (q t)) (base c).M c.n c.n *ᵥ ddq +
          SX.val (setV "q" (setV "dq" (env c s) (dq t)) (q t)) (base c).C c.n c.n *ᵥ dq t +
          SX.vec (setV "q" (setV "dq" (env c s) (dq t)) (q t)) (base c).G c.n) k + Q k) t :=
    C17_lagrange (base_wf hn ht) (base_unit hU) (env c s) hq hdq
  rw [hL, C_q hn ht hU s, setV_dq, M_q hn ht hU, G_q hn ht hU] at h
  exact h

include s in
/-- The power balance. -/
theorem energy_env {ddq : Fin c.n → ℝ} (hq : ∀ i, HasDerivAt (fun x => q x i) (dq t i) t) (hdq : ∀ i, HasDerivAt (fun x => dq x i) (ddq i) t) :
    HasDerivAt (fun x => kineticOf c (q x) (dq x) + potentialOf c (q x))
      (dq t ⬝ᵥ (massOf c (q t) *ᵥ ddq + coriolisOf c (q t) (dq t) *ᵥ dq t + gravityOf c (q t))) t := by
  have h : HasDerivAt (fun x => kineticEnergy ((base c).dynV (env c s)) c.n (fun i q => SX.val (setV "q" (env c s) q) ((base c).T0 (i + 1)) 4 4) (q x) (dq x) +
        potential ((base c).dynV (env c s)) (SX.vec (env c s) (base c).g 3) c.n fun i => SX.val (setV "q" (env c s) (q x)) ((base c).T0 (i + 1)) 4 4)
      (dq t ⬝ᵥ (SX.val (setV "q" (setV "dq" (env c s) (dq t)) (q t)) (base c).M c.n c.n *ᵥ ddq +
          SX.val (setV "q" (setV "dq" (env c s) (dq t)) (q t)) (base c).C c.n c.n *ᵥ dq t +
          SX.vec (setV "q" (setV "dq" (env c s) (dq t)) (q t)) (base c).G c.n)) t :=
    C17_energy (base_wf hn ht) (base_unit hU) (env c s) hq hdq
  rw [C_q hn ht hU s, setV_dq, M_q hn ht hU, G_q hn ht hU] at h
  simpa only [kinetic_env hn ht s, potential_env hn ht s] using h

end

end

end

end Thunder
