import Verif.Lemmas.Rigid
import Verif.Props.Returned
import Verif.Lemmas.Inertia

/-!
# Property C85: mounting the robot elsewhere, and changing its tool

What `get` of two robots built from files that differ only in the placement of the base (`world2L0`) and in gravity, or only in the tool (`Ln2EE`), returns;
likewise for the getters of the classes generated from them.
-/

open scoped Classical
open Matrix

namespace Thunder

noncomputable section

open Spec Robot SX

section

variable [Fl] {y y' : Yaml} {c : Conf}

/-! ## Auxiliary facts -/

omit [Fl] in
/-- A matrix is determined by its products with the linear parameters of all bodies. -/
theorem eq_of_reg {n m : ℕ} {A B : Matrix (Fin m) (Fin (10 * n)) ℝ} (h : ∀ p, A *ᵥ (fun k => reg p k) = B *ᵥ (fun k => reg p k)) : A = B := by
  have key : ∀ x : ℕ → ℝ, (∀ i < n, x (10 * i) ≠ 0) → A *ᵥ (fun k => x k) = B *ᵥ (fun k => x k) := by
    intro x hx
    have e : (fun k : Fin (10 * n) => x k) = fun k : Fin (10 * n) => reg (dynPar x) k := funext fun k => (reg_dynPar hx k.2).symm
    rw [e]
    exact h _
  ext a b
  have h1 := key (fun _ => 1) fun _ _ => one_ne_zero
  have h2 := key (fun k => 1 + if k = (b : ℕ) then 1 else 0) fun i _ => by split_ifs <;> norm_num
  have e : (fun k : Fin (10 * n) => (1 : ℝ) + if (k : ℕ) = (b : ℕ) then 1 else 0) = (fun _ => 1) + Pi.single b 1 := by
    funext k
    simp only [Pi.add_apply, Pi.single_apply, Fin.ext_iff]
  rw [e, mulVec_add, mulVec_add, h1, add_right_inj, mulVec_single_one, mulVec_single_one] at h2
  exact congrFun h2 a

theorem turns_link (hn : 0 < c.n) (ht : Typed c) (hU : UnitNumeric c) (s : State c) {i : ℕ} (hi : i < c.n) :
    Turns (fun q => linkFrame c q (i + 1)) s.q (fun j a => angRows (SX.val (env c s) ((base c).J i) 6 c.n) a j) ∧
    ∀ j a, DifferentiableAt ℝ (fun t => pos (linkFrame c (Function.update s.q j t) (i + 1)) a) (s.q j) :=
  ⟨⟨fun q => (isRigid_linkFrame hn ht hU q s).1 (i + 1) hi, (jac_link hn ht s hU hi).2⟩, fun j a => ((jac_link hn ht s hU hi).1 j a).differentiableAt⟩

theorem turns_tool (hn : 0 < c.n) (ht : Typed c) (hU : UnitNumeric c) (s : State c) :
    Turns (toolFrame c) s.q (fun j a => angRows (SX.val (env c s) (base c).Jee 6 c.n) a j) ∧
    ∀ j a, DifferentiableAt ℝ (fun t => pos (toolFrame c (Function.update s.q j t)) a) (s.q j) :=
  ⟨⟨fun q => (isRigid_linkFrame hn ht hU q s).2, (jac_tool hn ht s hU).2⟩, fun j a => ((jac_tool hn ht s hU).1 j a).differentiableAt⟩

section

variable {n : ℕ} (q v a b : Fin n → ℝ)

omit [Fl] in
/-- The motion with given position, velocity, acceleration and jerk at time 0. -/
def through (x : ℝ) : Fin n → ℝ := fun i => q i + x * v i + x ^ 2 / 2 * a i + x ^ 3 / 6 * b i

omit [Fl] in
theorem through_zero : through q v a b 0 = q := by funext i; simp [through]

omit [Fl] in
theorem through_der (x : ℝ) (i : Fin n) : HasDerivAt (fun x => through q v a b x i) (v i + x * a i + x ^ 2 / 2 * b i) x := by
  have h1 := (hasDerivAt_id' x).mul_const (v i)
  have h2 := ((hasDerivAt_pow 2 x).div_const 2).mul_const (a i)
  have h3 := ((hasDerivAt_pow 3 x).div_const 6).mul_const (b i)
  refine (((h1.const_add (q i)).add h2).add h3).congr_deriv ?_
  push_cast
  ring

omit [Fl] in
theorem through_der2 (x : ℝ) (i : Fin n) : HasDerivAt (fun x => v i + x * a i + x ^ 2 / 2 * b i) (a i + x * b i) x := by
  have h1 := (hasDerivAt_id' x).mul_const (a i)
  have h2 := ((hasDerivAt_pow 2 x).div_const 2).mul_const (b i)
  refine ((h1.const_add (v i)).add h2).congr_deriv ?_
  push_cast
  ring

omit [Fl] in
theorem through_der3 (x : ℝ) (i : Fin n) : HasDerivAt (fun x => a i + x * b i) (b i) x := by
  simpa using ((hasDerivAt_id' x).mul_const (b i)).const_add (a i)

end

omit [Fl] in
/-- Orthogonal changes of the right-hand side in damped least squares: the minimisers correspond to each other. -/
theorem pinv_turned {n : ℕ} {J : Matrix (Fin 6) (Fin n) ℝ} {P P' : Matrix (Fin n) (Fin 6) ℝ} {S : Matrix (Fin 6) (Fin 6) ℝ} (hS : Sᵀ * S = 1)
    (h : ∀ (v : Fin 6 → ℝ) (x : Fin n → ℝ), x ≠ P *ᵥ v →
      (J *ᵥ (P *ᵥ v) - v) ⬝ᵥ (J *ᵥ (P *ᵥ v) - v) + 0.02 * ((P *ᵥ v) ⬝ᵥ (P *ᵥ v)) < (J *ᵥ x - v) ⬝ᵥ (J *ᵥ x - v) + 0.02 * (x ⬝ᵥ x))
    (h' : ∀ (v : Fin 6 → ℝ) (x : Fin n → ℝ), x ≠ P' *ᵥ v →
      ((S * J) *ᵥ (P' *ᵥ v) - v) ⬝ᵥ ((S * J) *ᵥ (P' *ᵥ v) - v) + 0.02 * ((P' *ᵥ v) ⬝ᵥ (P' *ᵥ v)) <
        ((S * J) *ᵥ x - v) ⬝ᵥ ((S * J) *ᵥ x - v) + 0.02 * (x ⬝ᵥ x)) : P' = P * Sᵀ := by
  have hS' : S * Sᵀ = 1 := mul_eq_one_comm.mp hS
  have e : ∀ (v : Fin 6 → ℝ) (x : Fin n → ℝ), ((S * J) *ᵥ x - v) ⬝ᵥ ((S * J) *ᵥ x - v) = (J *ᵥ x - Sᵀ *ᵥ v) ⬝ᵥ (J *ᵥ x - Sᵀ *ᵥ v) := by
    intro v x
    have e1 : (S * J) *ᵥ x - v = S *ᵥ (J *ᵥ x - Sᵀ *ᵥ v) := by
      rw [mulVec_sub, mulVec_mulVec, mulVec_mulVec, hS', one_mulVec]
    rw [e1, dotProduct_mulVec, vecMul_mulVec, hS, vecMul_one]
  refine Matrix.ext_of_mulVec_single fun k => ?_
  generalize (Pi.single k 1 : Fin 6 → ℝ) = v
  rw [← mulVec_mulVec]
  by_contra hne
  have a1 := h (Sᵀ *ᵥ v) _ hne
  have a2 := h' v _ (Ne.symm hne)
  rw [e, e] at a2
  exact lt_asymm a1 a2

/-! ## Frames and Jacobians -/

variable {fw fg : ℕ → ℤ} {w g : ℕ → ℝ}

theorem linkFrame_mounted {D : Matrix (Fin 4) (Fin 4) ℝ} (hD : mountOf fw w = D * mountOf c.fw2l c.w2l) (q : Fin c.n → ℝ) (i : ℕ) :
    linkFrame (mounted c fw w fg g) q i = D * linkFrame c q i := by
  induction i with
  | zero => exact hD
  | succ i ih =>
    show linkFrame (mounted c fw w fg g) q i * (if h : i < c.n then linkOf c i (q ⟨i, h⟩) else 1) = D * (linkFrame c q i * _)
    rw [← mul_assoc]
    exact congrArg (· * _) ih

theorem toolFrame_mounted {D : Matrix (Fin 4) (Fin 4) ℝ} (hD : mountOf fw w = D * mountOf c.fw2l c.w2l) (q : Fin c.n → ℝ) :
    toolFrame (mounted c fw w fg g) q = D * toolFrame c q := by
  unfold toolFrame
  rw [← mul_assoc]
  exact congrArg (· * _) (linkFrame_mounted hD q c.n)

theorem jacobian_mounted {D : Matrix (Fin 4) (Fin 4) ℝ} (hD : mountOf fw w = D * mountOf c.fw2l c.w2l) (hr : IsRigid D) (hn : 0 < c.n) (ht : Typed c)
    (hU : UnitNumeric c) (s : State c) (q : Fin c.n → ℝ) : jacobianOf (toolFrame (mounted c fw w fg g)) q = turned (rot D) * jacobianOf (toolFrame c) q := by
  have e : toolFrame (mounted c fw w fg g) = fun q => D * toolFrame c q := funext fun q => toolFrame_mounted hD q
  obtain ⟨h1, h2⟩ := turns_tool hn ht hU { s with q := q }
  refine (congrArg (fun T => jacobianOf T q) e).trans (jacobian_left h1 hr fun j a => ?_)
  simp only [point_zero]
  exact h2 j a

/-- C85: mounting the robot elsewhere moves all its frames by the same rigid motion and turns its Jacobians, their rates and the damped pseudo-inverse by the
rotation of that motion; the transformations between links stay the same. -/
theorem C85_kinematics {s : State c} {R R' : String → Mat → Prop} (h : Source y c s R) (h' : Source y' (mounted c fw w fg g) (s.mounted fw w fg g) R')
    (hU : UnitNumeric c) (hU' : UnitNumeric (mounted c fw w fg g)) :
    ∃ D, IsRigid D ∧ mountOf fw w = D * mountOf c.fw2l c.w2l ∧
      (∀ i < c.n, ∃ T : Matrix (Fin 4) (Fin 4) ℝ, Returns R ("T_" ++ toString (i + 1)) T ∧ Returns R' ("T_" ++ toString (i + 1)) T) ∧
      (∀ i ≤ c.n + 1, ∃ T : Matrix (Fin 4) (Fin 4) ℝ, Returns R ("T_0_" ++ toString i) T ∧ Returns R' ("T_0_" ++ toString i) (D * T)) ∧
      (∃ T : Matrix (Fin 4) (Fin 4) ℝ, Returns R "T_0_ee" T ∧ Returns R' "T_0_ee" (D * T)) ∧
      (∀ i ≤ c.n, ∃ J : Matrix (Fin 6) (Fin c.n) ℝ, Returns R ("J_" ++ toString (i + 1)) J ∧ Returns R' ("J_" ++ toString (i + 1)) (turned (rot D) * J)) ∧
      (∀ i < c.n, ∃ J : Matrix (Fin 6) (Fin c.n) ℝ,
        Returns R ("J_cm_" ++ toString (i + 1)) J ∧ Returns R' ("J_cm_" ++ toString (i + 1)) (turned (rot D) * J)) ∧
      (∀ f ∈ ["J_ee", "J_ee_dot", "J_ee_ddot"], ∃ J : Matrix (Fin 6) (Fin c.n) ℝ, Returns R f J ∧ Returns R' f (turned (rot D) * J)) ∧
      ∃ P : Matrix (Fin c.n) (Fin 6) ℝ, Returns R "J_ee_pinv" P ∧ Returns R' "J_ee_pinv" (P * (turned (rot D))ᵀ) := by
  obtain ⟨D, hr, hD⟩ := exists_left ((C56_rigid h' hU' s.q).1 0 (Nat.zero_le _)) ((C56_rigid h hU s.q).1 0 (Nat.zero_le _))
  replace hD : mountOf fw w = D * mountOf c.fw2l c.w2l := hD
  obtain ⟨-, a1, a2, a3, a4⟩ := C56_frames h
  obtain ⟨-, b1, b2, b3, b4⟩ := C56_frames h'
  obtain ⟨c1, c2, c3⟩ := C57_jacobians h hU
  obtain ⟨d1, d2, d3⟩ := C57_jacobians h' hU'
  have hJ := jacobian_mounted (fg := fg) (g := g) hD hr h.pos h.typed hU s
  have hT : toolFrame (mounted c fw w fg g) s.q = D * toolFrame c s.q := toolFrame_mounted hD s.q
  refine ⟨D, hr, hD, fun i hi => ⟨_, a1 i hi, b1 i hi⟩, fun i hi => ?_, ⟨_, a4, hT ▸ b4⟩, fun i hi => ?_, fun i hi => ?_, fun f hf => ?_, ?_⟩
  · rcases Nat.lt_or_ge c.n i with hi' | hi'
    · obtain rfl : i = c.n + 1 := by omega
      exact ⟨_, a3, hT ▸ b3⟩
    · refine ⟨_, a2 i hi', ?_⟩
      have := b2 i hi'
      rwa [show linkFrame (mounted c fw w fg g) (s.mounted fw w fg g).q i = D * linkFrame c s.q i from linkFrame_mounted hD s.q i] at this
  · rcases Nat.lt_or_ge i c.n with hi' | hi'
    · refine ⟨_, c1 i hi', ?_⟩
      obtain ⟨h1, h2⟩ := turns_link h.pos h.typed hU s hi'
      have e : (fun q => linkFrame (mounted c fw w fg g) q (i + 1)) = fun q : Fin c.n → ℝ => D * linkFrame c q (i + 1) :=
        funext fun q => linkFrame_mounted hD q (i + 1)
      have e' : jacobianOf (fun q : Fin c.n → ℝ => linkFrame (mounted c fw w fg g) q (i + 1)) s.q =
          turned (rot D) * jacobianOf (fun q => linkFrame c q (i + 1)) s.q :=
        (congrArg (fun T => jacobianOf T s.q) e).trans (jacobian_left h1 hr fun j a => by simp only [point_zero]; exact h2 j a)
      exact e' ▸ d1 i hi'
    · obtain rfl : i = c.n := by omega
      exact ⟨_, c2, hJ s.q ▸ d2⟩
  · obtain ⟨e1, e2⟩ := C57_com h hU hi
    have f1 := (C57_com h' hU' hi).1
    refine ⟨_, e1, ?_⟩
    have e : (fun q => linkFrame (mounted c fw w fg g) q (i + 1)) = fun q : Fin c.n → ℝ => D * linkFrame c q (i + 1) :=
      funext fun q => linkFrame_mounted hD q (i + 1)
    have e' : jacobianAt (fun q : Fin c.n → ℝ => linkFrame (mounted c fw w fg g) q (i + 1)) (com c.dyn i) s.q =
        turned (rot D) * jacobianAt (fun q => linkFrame c q (i + 1)) (com c.dyn i) s.q :=
      (congrArg (fun T => jacobianAt T (com c.dyn i) s.q) e).trans
        (jacobian_left (turns_link h.pos h.typed hU s hi).1 hr fun j a => (e2 j a).differentiableAt)
    exact e' ▸ f1
  · obtain ⟨A, B, hA, hB, A1, B1⟩ := C57_rates h hU
    obtain ⟨A', B', hA', hB', A1', B1'⟩ := C57_rates h' hU'
    let p : ℝ → Fin c.n → ℝ := through s.q s.dq s.ddq s.d3q
    have q0 : p 0 = s.q := through_zero s.q s.dq s.ddq s.d3q
    have k0 : ∀ i, HasDerivAt (fun x => p x i) (s.dq i) 0 := fun i => by simpa using through_der s.q s.dq s.ddq s.d3q 0 i
    have mulder : ∀ {F : ℝ → Matrix (Fin 6) (Fin c.n) ℝ} {F' : Matrix (Fin 6) (Fin c.n) ℝ} {t : ℝ}, (∀ a b, HasDerivAt (fun x => F x a b) (F' a b) t) →
        ∀ a b, HasDerivAt (fun x => (turned (rot D) * F x) a b) ((turned (rot D) * F') a b) t := by
      intro F F' t hF a b
      simp only [mul_apply]
      exact HasDerivAt.fun_sum fun k _ => (hF k b).const_mul _
    simp only [List.mem_cons, List.not_mem_nil, or_false] at hf
    rcases hf with rfl | rfl | rfl
    · exact ⟨_, c3, hJ s.q ▸ d3⟩
    · refine ⟨A, hA, ?_⟩
      have e : A' = turned (rot D) * A := by
        ext a b
        have u1 := A1' p 0 q0 k0 a b
        have u2 := mulder (A1 p 0 q0 k0) a b
        refine u1.unique (u2.congr_of_eventuallyEq (Filter.Eventually.of_forall fun x => ?_))
        exact congrFun (congrFun (hJ (p x)) a) b
      exact e ▸ hA'
    · refine ⟨B, hB, ?_⟩
      have dq0 : (fun i => s.dq i + (0 : ℝ) * s.ddq i + 0 ^ 2 / 2 * s.d3q i) = s.dq := by funext i; simp
      have e : B' = turned (rot D) * B := by
        ext a b
        have k1 := fun i => through_der2 s.dq s.ddq s.d3q 0 i
        simp only [zero_mul, add_zero] at k1
        have u1 := B1' p (fun x i => s.dq i + x * s.ddq i + x ^ 2 / 2 * s.d3q i) 0 q0 dq0 (through_der s.q s.dq s.ddq s.d3q) k1 a b
        have u2 := mulder (F := fun x => Matrix.of fun a b => deriv (fun x => jacobianOf (toolFrame c) (p x) a b) x)
          (B1 p (fun x i => s.dq i + x * s.ddq i + x ^ 2 / 2 * s.d3q i) 0 q0 dq0 (through_der s.q s.dq s.ddq s.d3q) k1) a b
        refine u1.unique (u2.congr_of_eventuallyEq (Filter.Eventually.of_forall fun x => ?_))
        have e1 : (fun x => jacobianOf (toolFrame (mounted c fw w fg g)) (p x) a b) =
            fun x => (turned (rot D) * jacobianOf (toolFrame c) (p x)) a b := funext fun x => congrFun (congrFun (hJ (p x)) a) b
        show deriv (fun x => jacobianOf (toolFrame (mounted c fw w fg g)) (p x) a b) x = _
        rw [e1]
        refine (mulder (F := fun x => jacobianOf (toolFrame c) (p x)) (fun a b => ?_) a b).deriv
        have v : HasDerivAt (fun z => jacobianOf (toolFrame c) (p z) a b) _ x :=
          Jee_dot h.pos h.typed hU { s with q := p x, dq := fun i => s.dq i + x * s.ddq i + x ^ 2 / 2 * s.d3q i } rfl
            (fun i => through_der s.q s.dq s.ddq s.d3q x i) a b
        exact v.differentiableAt.hasDerivAt
      exact e ▸ hB'
  · obtain ⟨P, hP, P1⟩ := C57_pinv h hU
    obtain ⟨P', hP', P1'⟩ := C57_pinv h' hU'
    refine ⟨P, hP, ?_⟩
    have e : P' = P * (turned (rot D))ᵀ := by
      refine pinv_turned (J := jacobianOf (toolFrame c) s.q) ?_ P1 fun v x hx => ?_
      · rw [turned_transpose, turned_mul, hr.rot.orth, turned_one]
      · rw [← hJ s.q]
        exact P1' v x hx
    exact e ▸ hP'

/-! ## Dynamics -/

theorem massOf_mounted_at (hn : 0 < c.n) (ht : Typed c) (hU : UnitNumeric c) (hU' : UnitNumeric (mounted c fw w fg g)) (s : State c) :
    massOf (mounted c fw w fg g) s.q = massOf c s.q := by
  have hb : base (mounted c fw w fg g) = (base c).remount (kmod (mounted c fw w fg g) .W2L) (kmod (mounted c fw w fg g) .grav) := rfl
  have hB := base_wf hn ht
  have hB' := base_wf (c := mounted c fw w fg g) hn ht
  have hu : (base c).BaseUnit := fun k h1 h2 a ha => base_unit hU a (.inr ⟨k, h1, h2, .inl ha⟩)
  have hu' : (base (mounted c fw w fg g)).BaseUnit := fun k h1 h2 a ha => base_unit hU' a (.inr ⟨k, h1, h2, .inl ha⟩)
  have e := (C54_MC (B := base c) hB (hb ▸ hB') hu (hb ▸ hu') (same_mounted (s := s) (fw := fw) (fg := fg) (w := w) (g := g))).1
  have e1 := val_M hn ht hU s
  have e2 : SX.val _ (base (mounted c fw w fg g)).M c.n c.n = massOf (mounted c fw w fg g) s.q :=
    val_M (c := mounted c fw w fg g) hn ht hU' (s.mounted fw w fg g)
  exact (e2.symm.trans e).trans e1

theorem massOf_mounted (hn : 0 < c.n) (ht : Typed c) (hU : UnitNumeric c) (hU' : UnitNumeric (mounted c fw w fg g)) (s : State c) :
    massOf (mounted c fw w fg g) = massOf c := funext fun q => massOf_mounted_at hn ht hU hU' ({ s with q := q } : State c)

theorem gravityOf_mounted_at (hn : 0 < c.n) (ht : Typed c) (hU : UnitNumeric c) (hU' : UnitNumeric (mounted c fw w fg g)) (s : State c)
    (h0 : (rot (mountOf fw w))ᵀ *ᵥ (fun k => g k) = (rot (mountOf c.fw2l c.w2l))ᵀ *ᵥ (fun k => c.g k)) :
    gravityOf (mounted c fw w fg g) s.q = gravityOf c s.q := by
  have hb : base (mounted c fw w fg g) = (base c).remount (kmod (mounted c fw w fg g) .W2L) (kmod (mounted c fw w fg g) .grav) := rfl
  have hB := base_wf hn ht
  have hB' := base_wf (c := mounted c fw w fg g) hn ht
  have hu : (base c).BaseUnit := fun k h1 h2 a ha => base_unit hU a (.inr ⟨k, h1, h2, .inl ha⟩)
  have hu' : (base (mounted c fw w fg g)).BaseUnit := fun k h1 h2 a ha => base_unit hU' a (.inr ⟨k, h1, h2, .inl ha⟩)
  have e1 := vec_G hn ht hU s
  have e2 : SX.vec _ (base (mounted c fw w fg g)).G c.n = gravityOf (mounted c fw w fg g) s.q :=
    vec_G (c := mounted c fw w fg g) hn ht hU' (s.mounted fw w fg g)
  refine (e2.symm.trans (C54_G (B := base c) hB (hb ▸ hB') hu (hb ▸ hu')
    (same_mounted (s := s) (fw := fw) (fg := fg) (w := w) (g := g)) ?_)).trans e1
  have a1 : SX.val (env c s) ((base c).T0 0) 4 4 = mountOf c.fw2l c.w2l := val_T0 hn ht _ (Nat.zero_le _)
  have a2 : SX.val (env (mounted c fw w fg g) (s.mounted fw w fg g)) ((base (mounted c fw w fg g)).T0 0) 4 4 = mountOf fw w :=
    val_T0 (c := mounted c fw w fg g) hn ht _ (Nat.zero_le _)
  have b1 : SX.vec (env c s) (base c).g 3 = fun k : Fin 3 => c.g k := funext fun k => eval_par _ (k := .grav) rfl trivial k.2
  have b2 : SX.vec (env (mounted c fw w fg g) (s.mounted fw w fg g)) (kmod (mounted c fw w fg g) .grav) 3 = fun k : Fin 3 => g k :=
    funext fun k => eval_par (s.mounted fw w fg g) (k := .grav) rfl trivial k.2
  rw [a1, b1, b2]
  exact (congrArg (fun T => (rot T)ᵀ *ᵥ fun k : Fin 3 => g k) a2).trans h0

theorem gravityOf_mounted (hn : 0 < c.n) (ht : Typed c) (hU : UnitNumeric c) (hU' : UnitNumeric (mounted c fw w fg g)) (s : State c)
    (h0 : (rot (mountOf fw w))ᵀ *ᵥ (fun k => g k) = (rot (mountOf c.fw2l c.w2l))ᵀ *ᵥ (fun k => c.g k)) :
    gravityOf (mounted c fw w fg g) = gravityOf c := funext fun q => gravityOf_mounted_at hn ht hU hU' ({ s with q := q } : State c) h0

/-- C85: `M`, `C`, their rates, `reg_M` and `reg_C` do not depend on where the robot is mounted; when gravity turns with the robot, neither do `G`, its rates,
`reg_G` and `Yr`. -/
theorem C85_dynamics {s : State c} {R R' : String → Mat → Prop} (h : Source y c s R) (h' : Source y' (mounted c fw w fg g) (s.mounted fw w fg g) R')
    (hU : UnitNumeric c) (hU' : UnitNumeric (mounted c fw w fg g)) :
    (∀ f ∈ ["M", "C", "C_std", "M_dot", "M_ddot", "C_dot", "C_ddot"], ∃ A : Matrix (Fin c.n) (Fin c.n) ℝ, Returns R f A ∧ Returns R' f A) ∧
    (∀ f ∈ ["reg_M", "reg_C"], ∃ A : Matrix (Fin c.n) (Fin (10 * c.n)) ℝ, Returns R f A ∧ Returns R' f A) ∧
    ∀ D : Matrix (Fin 4) (Fin 4) ℝ, mountOf fw w = D * mountOf c.fw2l c.w2l → (fun k : Fin 3 => g k) = rot D *ᵥ (fun k => c.g k) →
      (∀ f ∈ ["G", "G_dot", "G_ddot"], ∃ v : Fin c.n → ℝ, ReturnsVec R f v ∧ ReturnsVec R' f v) ∧
      ∀ f ∈ ["reg_G", "Yr"], ∃ A : Matrix (Fin c.n) (Fin (10 * c.n)) ℝ, Returns R f A ∧ Returns R' f A := by
  obtain ⟨m1, m2, m3, m4⟩ := C58_matrices h hU
  obtain ⟨m1', m2', m3', m4'⟩ := C58_matrices h' hU'
  obtain ⟨M₁, M₂, C₁, C₂, G₁, G₂, r1, r2, r3, r4, r5, r6, r7, r8⟩ := C58_rates h hU
  obtain ⟨M₁', M₂', C₁', C₂', G₁', G₂', r1', r2', r3', r4', r5', r6', r7', r8'⟩ := C58_rates h' hU'
  obtain ⟨Y, YM, YC, YG, y1, y2, y3, y4, y5, y6⟩ := C59_inertial h hU
  obtain ⟨Y', YM', YC', YG', y1', y2', y3', y4', y5', y6'⟩ := C59_inertial h' hU'
  have eM : massOf (mounted c fw w fg g) = massOf c := massOf_mounted h.pos h.typed hU hU' s
  have eC : coriolisOf (mounted c fw w fg g) = coriolisOf c := by
    funext q v
    exact congrArg (fun A : (Fin c.n → ℝ) → Matrix (Fin c.n) (Fin c.n) ℝ => christoffel A q v) eM
  have eM' : ∀ p, massOf (withDyn (mounted c fw w fg g) p) = massOf (withDyn c p) := fun p =>
    massOf_mounted (c := withDyn c p) h.pos h.typed hU hU' ⟨s.q, s.dq, s.ddq, s.d3q, s.dqr, s.ddqr, s.w, s.x, s.dx, s.ddx⟩
  have eC' : ∀ p, coriolisOf (withDyn (mounted c fw w fg g) p) = coriolisOf (withDyn c p) := fun p => by
    funext q v
    exact congrArg (fun A : (Fin c.n → ℝ) → Matrix (Fin c.n) (Fin c.n) ℝ => christoffel A q v) (eM' p)
  let p : ℝ → Fin c.n → ℝ := through s.q s.dq s.ddq s.d3q
  let v : ℝ → Fin c.n → ℝ := fun x i => s.dq i + x * s.ddq i + x ^ 2 / 2 * s.d3q i
  let a : ℝ → Fin c.n → ℝ := fun x i => s.ddq i + x * s.d3q i
  have p0 : p 0 = s.q := through_zero s.q s.dq s.ddq s.d3q
  have v0 : v 0 = s.dq := by funext i; simp [v]
  have a0 : a 0 = s.ddq := by funext i; simp [a]
  have pd : ∀ x i, HasDerivAt (fun x => p x i) (v x i) x := through_der s.q s.dq s.ddq s.d3q
  have vd : ∀ x i, HasDerivAt (fun x => v x i) (a x i) x := through_der2 s.dq s.ddq s.d3q
  have ad : ∀ i, HasDerivAt (fun x => a x i) (s.d3q i) 0 := through_der3 s.ddq s.d3q 0
  have vd0 : ∀ i, HasDerivAt (fun x => v x i) (s.ddq i) 0 := fun i => by have := vd 0 i; rwa [a0] at this
  have t1 := r7 p v 0 p0 v0 (pd 0) vd0
  have t1' := r7' p v 0 p0 v0 (pd 0) vd0
  have t2 := r8 p v a 0 p0 v0 a0 pd vd ad
  have t2' := r8' p v a 0 p0 v0 a0 pd vd ad
  have e1 : M₁' = M₁ := by
    ext i j
    exact (t1' i j).1.unique ((t1 i j).1.congr_of_eventuallyEq (Filter.Eventually.of_forall fun x => congrFun (congrFun (congrFun eM (p x)) i) j))
  have e2 : C₁' = C₁ := by
    ext i j
    exact (t1' i j).2.2.unique ((t1 i j).2.2.congr_of_eventuallyEq
      (Filter.Eventually.of_forall fun x => congrFun (congrFun (congrFun (congrFun eC (p x)) (v x)) i) j))
  have e3 : M₂' = M₂ := by
    ext i j
    have e : (fun x => massOf (mounted c fw w fg g) (p x) i j) = fun x => massOf c (p x) i j := funext fun x => congrFun (congrFun (congrFun eM (p x)) i) j
    exact (t2' i j).1.unique (e ▸ (t2 i j).1)
  have e4 : C₂' = C₂ := by
    ext i j
    have e : (fun x => coriolisOf (mounted c fw w fg g) (p x) (v x) i j) = fun x => coriolisOf c (p x) (v x) i j :=
      funext fun x => congrFun (congrFun (congrFun (congrFun eC (p x)) (v x)) i) j
    exact (t2' i j).2.2.unique (e ▸ (t2 i j).2.2)
  have e5 : YM' = YM := eq_of_reg fun θ => by
    refine ((y6' θ).1.trans ?_).trans (y6 θ).1.symm
    exact congrArg (fun A : Matrix (Fin c.n) (Fin c.n) ℝ => A *ᵥ s.ddqr) (congrFun (eM' θ) s.q)
  have e6 : YC' = YC := eq_of_reg fun θ => by
    refine ((y6' θ).2.1.trans ?_).trans (y6 θ).2.1.symm
    exact congrArg (fun A : Matrix (Fin c.n) (Fin c.n) ℝ => A *ᵥ s.dqr) (congrFun (congrFun (eC' θ) s.q) s.dq)
  have b1 : massOf (mounted c fw w fg g) s.q = massOf c s.q := congrFun eM s.q
  have b2 : coriolisOf (mounted c fw w fg g) s.q s.dq = coriolisOf c s.q s.dq := congrFun (congrFun eC s.q) s.dq
  refine ⟨fun f hf => ?_, fun f hf => ?_, fun D hD hg => ?_⟩
  · simp only [List.mem_cons, List.not_mem_nil, or_false] at hf
    rcases hf with rfl | rfl | rfl | rfl | rfl | rfl | rfl
    · exact ⟨_, m1, b1 ▸ m1'⟩
    · exact ⟨_, m2, b2 ▸ m2'⟩
    · exact ⟨_, m3, b2 ▸ m3'⟩
    · exact ⟨_, r1, e1 ▸ r1'⟩
    · exact ⟨_, r4, e3 ▸ r4'⟩
    · exact ⟨_, r2, e2 ▸ r2'⟩
    · exact ⟨_, r5, e4 ▸ r5'⟩
  · simp only [List.mem_cons, List.not_mem_nil, or_false] at hf
    rcases hf with rfl | rfl
    · exact ⟨_, y2, e5 ▸ y2'⟩
    · exact ⟨_, y3, e6 ▸ y3'⟩
  have hT := (C56_rigid h hU s.q).1 0 (Nat.zero_le _)
  have hT' := (C56_rigid h' hU' s.q).1 0 (Nat.zero_le _)
  replace hT : IsRigid (mountOf c.fw2l c.w2l) := hT
  replace hT' : IsRigid (mountOf fw w) := hT'
  have hrot : rot (mountOf fw w) = rot D * rot (mountOf c.fw2l c.w2l) := by rw [hD, rot_mul hT]
  have hg0 : (rot (mountOf fw w))ᵀ *ᵥ (fun k => g k) = (rot (mountOf c.fw2l c.w2l))ᵀ *ᵥ (fun k => c.g k) := by
    have o : (rot D)ᵀ * rot D = 1 := by
      have h1 := hT'.rot.orth
      rw [hrot, transpose_mul] at h1
      calc (rot D)ᵀ * rot D = (rot (mountOf c.fw2l c.w2l) * (rot (mountOf c.fw2l c.w2l))ᵀ) * ((rot D)ᵀ * rot D) *
            (rot (mountOf c.fw2l c.w2l) * (rot (mountOf c.fw2l c.w2l))ᵀ) := by rw [hT.rot.orth', one_mul, mul_one]
        _ = rot (mountOf c.fw2l c.w2l) * ((rot (mountOf c.fw2l c.w2l))ᵀ * (rot D)ᵀ * (rot D * rot (mountOf c.fw2l c.w2l))) *
            (rot (mountOf c.fw2l c.w2l))ᵀ := by simp only [mul_assoc]
        _ = 1 := by rw [h1, mul_one, hT.rot.orth']
    rw [hg, hrot, transpose_mul, mulVec_mulVec, mul_assoc, o, mul_one]
  have eG : gravityOf (mounted c fw w fg g) = gravityOf c := gravityOf_mounted h.pos h.typed hU hU' s hg0
  have eG' : ∀ p, gravityOf (withDyn (mounted c fw w fg g) p) = gravityOf (withDyn c p) := fun p =>
    gravityOf_mounted (c := withDyn c p) h.pos h.typed hU hU' ⟨s.q, s.dq, s.ddq, s.d3q, s.dqr, s.ddqr, s.w, s.x, s.dx, s.ddx⟩ hg0
  have e7 : G₁' = G₁ := by
    ext i
    exact (t1' i i).2.1.unique ((t1 i i).2.1.congr_of_eventuallyEq (Filter.Eventually.of_forall fun x => congrFun (congrFun eG (p x)) i))
  have e8 : G₂' = G₂ := by
    ext i
    have e : (fun x => gravityOf (mounted c fw w fg g) (p x) i) = fun x => gravityOf c (p x) i := funext fun x => congrFun (congrFun eG (p x)) i
    exact (t2' i i).2.1.unique (e ▸ (t2 i i).2.1)
  have e9 : YG' = YG := eq_of_reg fun θ => ((y6' θ).2.2.1.trans (congrFun (eG' θ) s.q)).trans (y6 θ).2.2.1.symm
  have e10 : Y' = Y := by rw [y5, ← e5, ← e6, ← e9]; exact y5'
  have b3 : gravityOf (mounted c fw w fg g) s.q = gravityOf c s.q := congrFun eG s.q
  refine ⟨fun f hf => ?_, fun f hf => ?_⟩
  · simp only [List.mem_cons, List.not_mem_nil, or_false] at hf
    rcases hf with rfl | rfl | rfl
    · exact ⟨_, m4, b3 ▸ m4'⟩
    · exact ⟨_, r3, e7 ▸ r3'⟩
    · exact ⟨_, r6, e8 ▸ r6'⟩
  · simp only [List.mem_cons, List.not_mem_nil, or_false] at hf
    rcases hf with rfl | rfl
    · exact ⟨_, y4, e9 ▸ y4'⟩
    · exact ⟨_, y1, e10 ▸ y1'⟩

/-! ## Another tool -/

variable {fe : ℕ → ℤ} {e : ℕ → ℝ}

theorem linkFrame_tooled (q : Fin c.n → ℝ) (i : ℕ) : linkFrame (tooled c fe e) q i = linkFrame c q i := by
  induction i with
  | zero => rfl
  | succ i ih => exact congrArg (· * _) ih

theorem massOf_tooled : massOf (tooled c fe e) = massOf c := by
  have eL : linkFrame (tooled c fe e) = linkFrame c := funext fun q => funext fun i => linkFrame_tooled (c := c) q i
  exact congrArg (fun F : (Fin c.n → ℝ) → ℕ → Matrix (Fin 4) (Fin 4) ℝ => fun q => quadratic (kineticEnergy c.dyn c.n (fun i q => F q (i + 1)) q)) eL

theorem coriolisOf_tooled : coriolisOf (tooled c fe e) = coriolisOf c :=
  congrArg (fun A : (Fin c.n → ℝ) → Matrix (Fin c.n) (Fin c.n) ℝ => fun q v => christoffel A q v) massOf_tooled

theorem gravityOf_tooled : gravityOf (tooled c fe e) = gravityOf c := by
  have eL : linkFrame (tooled c fe e) = linkFrame c := funext fun q => funext fun i => linkFrame_tooled (c := c) q i
  exact congrArg (fun F : (Fin c.n → ℝ) → ℕ → Matrix (Fin 4) (Fin 4) ℝ => fun (q : Fin c.n → ℝ) j =>
    deriv (fun x => potential c.dyn (fun k => c.g k) c.n fun i => F (Function.update q j x) (i + 1)) (q j)) eL

theorem isRigid_tool (hn : 0 < c.n) (ht : Typed c) (hU : UnitNumeric c) (s : State c) : IsRigid (mountOf c.fee c.ee) := by
  have hU' : UnitNumeric (mounted c c.fee c.ee c.fg c.g) := by
    rintro a (⟨i, h1, h2, h3⟩ | ⟨i, h1, h2, h3, h4⟩ | ⟨i, h1, h2, h3 | h3⟩)
    · exact hU a (.inl ⟨i, h1, h2, h3⟩)
    · exact hU a (.inr (.inl ⟨i, h1, h2, h3, h4⟩))
    · exact hU a (.inr (.inr ⟨i, h1, h2, .inr h3⟩))
    · exact hU a (.inr (.inr ⟨i, h1, h2, .inr h3⟩))
  exact (isRigid_linkFrame (c := mounted c c.fee c.ee c.fg c.g) hn ht hU' s.q (s.mounted c.fee c.ee c.fg c.g)).1 0 (Nat.zero_le _)

/-- C85: another tool changes the frame of the tool by a fixed rigid motion and its Jacobian by the rule for the velocities of two points of a body; the
frames, the Jacobians and the equations of motion of the links stay the same. -/
theorem C85_tool {s : State c} {R R' : String → Mat → Prop} (h : Source y c s R) (h' : Source y' (tooled c fe e) (s.tooled fe e) R')
    (hU : UnitNumeric c) (hU' : UnitNumeric (tooled c fe e)) :
    ∃ D, IsRigid D ∧ mountOf fe e = mountOf c.fee c.ee * D ∧
      (∃ T : Matrix (Fin 4) (Fin 4) ℝ, Returns R "T_0_ee" T ∧ Returns R' "T_0_ee" (T * D) ∧
        ∃ J J' : Matrix (Fin 6) (Fin c.n) ℝ, Returns R "J_ee" J ∧ Returns R' "J_ee" J' ∧
          lin J' = lin J - hat (rot T *ᵥ pos D) * angRows J ∧ angRows J' = angRows J) ∧
      (∀ i ≤ c.n, ∃ T : Matrix (Fin 4) (Fin 4) ℝ, Returns R ("T_0_" ++ toString i) T ∧ Returns R' ("T_0_" ++ toString i) T) ∧
      (∀ i < c.n, ∃ J : Matrix (Fin 6) (Fin c.n) ℝ, Returns R ("J_" ++ toString (i + 1)) J ∧ Returns R' ("J_" ++ toString (i + 1)) J) ∧
      (∀ i < c.n, ∃ J : Matrix (Fin 6) (Fin c.n) ℝ, Returns R ("J_cm_" ++ toString (i + 1)) J ∧ Returns R' ("J_cm_" ++ toString (i + 1)) J) ∧
      (∀ f ∈ ["M", "C", "C_std"], ∃ A : Matrix (Fin c.n) (Fin c.n) ℝ, Returns R f A ∧ Returns R' f A) ∧
      (∃ v : Fin c.n → ℝ, ReturnsVec R "G" v ∧ ReturnsVec R' "G" v) ∧
      ∀ f ∈ ["reg_M", "reg_C", "reg_G", "Yr"], ∃ A : Matrix (Fin c.n) (Fin (10 * c.n)) ℝ, Returns R f A ∧ Returns R' f A := by
  obtain ⟨D, hr, hD⟩ := exists_right (isRigid_tool h'.pos h'.typed hU' (s.tooled fe e)) (isRigid_tool h.pos h.typed hU s)
  replace hD : mountOf fe e = mountOf c.fee c.ee * D := hD
  obtain ⟨-, -, a2, -, a4⟩ := C56_frames h
  obtain ⟨-, -, b2, -, b4⟩ := C56_frames h'
  obtain ⟨c1, -, c3⟩ := C57_jacobians h hU
  obtain ⟨d1, -, d3⟩ := C57_jacobians h' hU'
  obtain ⟨m1, m2, m3, m4⟩ := C58_matrices h hU
  obtain ⟨m1', m2', m3', m4'⟩ := C58_matrices h' hU'
  have eT : toolFrame (tooled c fe e) = fun q : Fin c.n → ℝ => toolFrame c q * D := by
    funext q
    show linkFrame (tooled c fe e) q c.n * mountOf fe e = linkFrame c q c.n * mountOf c.fee c.ee * D
    rw [hD, mul_assoc]
    exact congrArg (· * _) (linkFrame_tooled (c := c) q c.n)
  have eL' : ∀ i, (fun q : Fin c.n → ℝ => linkFrame (tooled c fe e) q i) = fun q => linkFrame c q i := fun i => funext fun q => linkFrame_tooled (c := c) q i
  have eM := massOf_tooled (c := c) (fe := fe) (e := e)
  have eC : coriolisOf (tooled c fe e) s.q s.dq = coriolisOf c s.q s.dq := congrFun (congrFun (coriolisOf_tooled (c := c) (fe := fe) (e := e)) s.q) s.dq
  have eG : gravityOf (tooled c fe e) s.q = gravityOf c s.q := congrFun (gravityOf_tooled (c := c) (fe := fe) (e := e)) s.q
  obtain ⟨Y, YM, YC, YG, y1, y2, y3, y4, y5, y6⟩ := C59_inertial h hU
  obtain ⟨Y', YM', YC', YG', y1', y2', y3', y4', y5', y6'⟩ := C59_inertial h' hU'
  have e5 : YM' = YM := eq_of_reg fun θ => by
    refine ((y6' θ).1.trans ?_).trans (y6 θ).1.symm
    exact congrArg (fun A : Matrix (Fin c.n) (Fin c.n) ℝ => A *ᵥ s.ddqr) (congrFun (massOf_tooled (c := withDyn c θ) (fe := fe) (e := e)) s.q)
  have e6 : YC' = YC := eq_of_reg fun θ => by
    refine ((y6' θ).2.1.trans ?_).trans (y6 θ).2.1.symm
    exact congrArg (fun A : Matrix (Fin c.n) (Fin c.n) ℝ => A *ᵥ s.dqr) (congrFun (congrFun (coriolisOf_tooled (c := withDyn c θ) (fe := fe) (e := e)) s.q) s.dq)
  have e9 : YG' = YG := eq_of_reg fun θ => ((y6' θ).2.2.1.trans (congrFun (gravityOf_tooled (c := withDyn c θ) (fe := fe) (e := e)) s.q)).trans (y6 θ).2.2.1.symm
  have e10 : Y' = Y := by rw [y5, ← e5, ← e6, ← e9]; exact y5'
  obtain ⟨k1, k2⟩ := turns_tool h.pos h.typed hU s
  have eJ : jacobianOf (toolFrame (tooled c fe e)) s.q = jacobianAt (toolFrame c) (pos D) s.q := by
    refine (congrArg (fun T : (Fin c.n → ℝ) → _ => jacobianOf T s.q) eT).trans ((jacobian_right k1 hr).trans ?_)
    rw [point_zero]
  refine ⟨D, hr, hD, ⟨_, a4, ?_, _, _, c3, eJ ▸ d3, jacobian_point k1 k2, ?_⟩, fun i hi => ⟨_, a2 i hi, ?_⟩, fun i hi => ⟨_, c1 i hi, ?_⟩,
    fun i hi => ⟨_, (C57_com h hU hi).1, ?_⟩, fun f hf => ?_, ⟨_, m4, eG ▸ m4'⟩, fun f hf => ?_⟩
  · exact (congrFun eT s.q : toolFrame (tooled c fe e) s.q = _) ▸ b4
  · ext a j
    rw [k1.ang, jacobianOf, k1.ang]
  · exact (linkFrame_tooled s.q i : linkFrame (tooled c fe e) s.q i = _) ▸ b2 i hi
  · exact congrArg (fun T : (Fin c.n → ℝ) → _ => jacobianOf T s.q) (eL' (i + 1)) ▸ d1 i hi
  · exact congrArg (fun T : (Fin c.n → ℝ) → _ => jacobianAt T (com c.dyn i) s.q) (eL' (i + 1)) ▸ (C57_com h' hU' hi).1
  · simp only [List.mem_cons, List.not_mem_nil, or_false] at hf
    rcases hf with rfl | rfl | rfl
    · exact ⟨_, m1, (congrFun eM s.q : massOf (tooled c fe e) s.q = _) ▸ m1'⟩
    · exact ⟨_, m2, eC ▸ m2'⟩
    · exact ⟨_, m3, eC ▸ m3'⟩
  · simp only [List.mem_cons, List.not_mem_nil, or_false] at hf
    rcases hf with rfl | rfl | rfl | rfl
    · exact ⟨_, y2, e5 ▸ y2'⟩
    · exact ⟨_, y3, e6 ▸ y3'⟩
    · exact ⟨_, y4, e9 ▸ y4'⟩
    · exact ⟨_, y1, e10 ▸ y1'⟩

end

/-! ## Examples -/

namespace Ex

/-- The arm standing on the floor, with gravity along its axis. -/
abbrev standing : Conf := mounted armTuned (fun _ => 1) (fun _ => 0) (fun _ => 0) fun i => if i = 2 then 10 else 0

theorem unit_standing : @UnitNumeric fl standing := by
  rintro a (⟨i, h1, h2, rfl⟩ | ⟨i, h1, h2, h3, rfl⟩ | ⟨i, h1, h2, ⟨h3, -⟩ | ⟨h3, rfl⟩⟩)
  · exact unit_arm _ (.inl ⟨i, h1, h2, rfl⟩)
  · exact unit_arm _ (.inr (.inl ⟨i, h1, h2, h3, rfl⟩))
  · exact absurd h3 one_ne_zero
  · exact unit_arm _ (.inr (.inr ⟨i, h1, h2, .inr ⟨h3, rfl⟩⟩))

/-- The frames and the Jacobian of the tool of the arm and of the arm standing on the floor. -/
example : ∃ r r', @Running fl (fileOf arm) armTuned armState r ∧ @Running fl (fileOf standing) standing (armState.mounted _ _ _ _) r' ∧
    ∃ D T : Matrix (Fin 4) (Fin 4) ℝ, ∃ J : Matrix (Fin 6) (Fin armTuned.n) ℝ, IsRigid D ∧ Returns (answers r) "T_0_ee" T ∧
      Returns (answers r') "T_0_ee" (D * T) ∧ Returns (answers r) "J_ee" J ∧ Returns (answers r') "J_ee" (turned (rot D) * J) := by
  let _ := fl
  obtain ⟨r, hr⟩ := running_arm
  obtain ⟨r', hr'⟩ := C56_reachable (describes_fileOf (c := standing) (fun h => nomatch h)) joints_arm (retuned_refl _) (armState.mounted _ _ _ _)
  obtain ⟨D, h1, -, -, -, ⟨T, h2, h3⟩, -, -, h4, -⟩ := C85_kinematics (.robot hr) (.robot hr') unit_arm unit_standing
  obtain ⟨J, h5, h6⟩ := h4 "J_ee" (by decide)
  exact ⟨r, r', hr, hr', D, T, J, h1, h2, h3, h5, h6⟩

/-- The regressor of the inertia torques of the two. -/
example : ∃ r r', @Running fl (fileOf arm) armTuned armState r ∧ @Running fl (fileOf standing) standing (armState.mounted _ _ _ _) r' ∧
    ∃ A : Matrix (Fin armTuned.n) (Fin (10 * armTuned.n)) ℝ, Returns (answers r) "reg_M" A ∧ Returns (answers r') "reg_M" A := by
  let _ := fl
  obtain ⟨r, hr⟩ := running_arm
  obtain ⟨r', hr'⟩ := C56_reachable (describes_fileOf (c := standing) (fun h => nomatch h)) joints_arm (retuned_refl _) (armState.mounted _ _ _ _)
  obtain ⟨A, h1, h2⟩ := (C85_dynamics (.robot hr) (.robot hr') unit_arm unit_standing).2.1 "reg_M" (by decide)
  exact ⟨r, r', hr, hr', A, h1, h2⟩

/-- The arm with a tool one metre long. -/
abbrev reaching : Conf := tooled armTuned (fun _ => 1) fun i => if i = 2 then 1 else 0

/-- The mass matrix of the arm does not depend on the length of its tool. -/
example : ∃ r r', @Running fl (fileOf arm) armTuned armState r ∧ @Running fl (fileOf reaching) reaching (armState.tooled _ _) r' ∧
    ∃ A : Matrix (Fin armTuned.n) (Fin armTuned.n) ℝ, Returns (answers r) "M" A ∧ Returns (answers r') "M" A := by
  let _ := fl
  obtain ⟨r, hr⟩ := running_arm
  obtain ⟨r', hr'⟩ := C56_reachable (describes_fileOf (c := reaching) (fun h => nomatch h)) joints_arm (retuned_refl _) (armState.tooled _ _)
  have hU' : @UnitNumeric fl reaching := by
    rintro a (⟨i, h1, h2, rfl⟩ | ⟨i, h1, h2, h3, rfl⟩ | ⟨i, h1, h2, ⟨h3, rfl⟩ | ⟨h3, -⟩⟩)
    · exact unit_arm _ (.inl ⟨i, h1, h2, rfl⟩)
    · exact unit_arm _ (.inr (.inl ⟨i, h1, h2, h3, rfl⟩))
    · exact unit_arm _ (.inr (.inr ⟨i, h1, h2, .inl ⟨h3, rfl⟩⟩))
    · exact absurd h3 one_ne_zero
  obtain ⟨D, -, -, -, -, -, -, h1, -⟩ := C85_tool (.robot hr) (.robot hr') unit_arm hU'
  obtain ⟨A, h2, h3⟩ := h1 "M" (by decide)
  exact ⟨r, r', hr, hr', A, h2, h3⟩

end Ex

end

end Thunder
