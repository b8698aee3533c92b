import Verif.Lemmas.DriftJac
import Verif.Lemmas.Posdef

/-!
# Sizes in terms of the file; inertia of the joints; the mass matrix as a function of the position
-/

open Matrix

namespace Thunder

noncomputable section

open Spec Robot

set_option linter.unusedSectionVars false

/-! ### Numbers -/

theorem gap_le {u : ℝ} (hu : 0 ≤ u) {k : ℕ} (h : k * u ≤ 1) : gap u k ≤ 2 * (k * u) := by
  have h1 : (1 + u) ^ k ≤ 1 + k * u + (k * u) ^ 2 := by
    have key : ∀ j : ℕ, j ≤ k → (1 + u) ^ j ≤ 1 + j * u + (j * u) ^ 2 := by
      intro j
      induction j with
      | zero => intro _; norm_num
      | succ j ih =>
        intro hj
        have := ih (by omega)
        have hj' : ((j : ℝ) + 1) * u ≤ 1 := by
          refine le_trans (mul_le_mul_of_nonneg_right ?_ hu) h
          exact_mod_cast hj
        have hju : (j : ℝ) * u ≤ 1 := by nlinarith
        have hj0 : (0 : ℝ) ≤ j := Nat.cast_nonneg j
        have h0 : 0 ≤ (j : ℝ) * u := by positivity
        rw [pow_succ]
        push_cast
        have h2 := mul_le_mul_of_nonneg_right this (show 0 ≤ 1 + u by linarith)
        have h3 : ((j : ℝ) * u) ^ 2 * u ≤ (j * u) * u := by nlinarith
        nlinarith [sq_nonneg u]
    exact key k le_rfl
  have h0 : 0 ≤ (k : ℝ) * u := by positivity
  unfold gap
  nlinarith

variable [Fl]

/-! ### The inertia of a link at its own joint -/

namespace Base

variable {B : Base} (ρ : Var → ℝ)

theorem quad_first {i : ℕ} (hi : i < B.n) {v : Fin B.n → ℝ} (hv : ∀ j : Fin B.n, (j : ℕ) < i → v j = 0) :
    v ⬝ᵥ SX.val ρ (B.Mi i) B.n B.n *ᵥ v = v ⟨i, hi⟩ ^ 2 *
      (B.massV ρ i * (B.pcol ρ i i ⬝ᵥ B.pcol ρ i i) + B.lcol ρ i i ⬝ᵥ B.inertiaV ρ i *ᵥ B.lcol ρ i i) := by
  have hone : ∀ f : Fin B.n → ℝ, (∀ j : Fin B.n, i < (j : ℕ) → f j = 0) → (∑ j : Fin B.n, f j * v j) = f ⟨i, hi⟩ * v ⟨i, hi⟩ := by
    intro f hf
    rw [Finset.sum_eq_single (⟨i, hi⟩ : Fin B.n)]
    · intro j _ hj
      by_cases h : (j : ℕ) < i
      · rw [hv j h, mul_zero]
      · rw [hf j (lt_of_le_of_ne (not_lt.1 h) fun e => hj (Fin.ext e.symm)), zero_mul]
    · exact fun h => absurd (Finset.mem_univ _) h
  have hl : B.jv ρ i *ᵥ v = v ⟨i, hi⟩ • B.pcol ρ i i := by
    ext a
    simp only [mulVec, dotProduct]
    rw [hone (fun j => B.jv ρ i a j) fun j hj => ?_, Pi.smul_apply, smul_eq_mul, mul_comm]
    · exact congrArg _ (congrFun (col_jv ρ i ⟨i, hi⟩) a)
    · have := congrFun (col_jv ρ i j) a
      rw [pcol, if_neg (by omega)] at this
      exact this
  have hw : B.jw ρ i *ᵥ v = v ⟨i, hi⟩ • B.ocol ρ i i := by
    ext a
    simp only [mulVec, dotProduct]
    rw [hone (fun j => B.jw ρ i a j) fun j hj => ?_, Pi.smul_apply, smul_eq_mul, mul_comm]
    · exact congrArg _ (congrFun (col_jw ρ i ⟨i, hi⟩) a)
    · have := congrFun (col_jw ρ i j) a
      rw [ocol, if_neg (by omega)] at this
      exact this
  have e : (B.rotV ρ (i + 1))ᵀ *ᵥ (v ⟨i, hi⟩ • B.ocol ρ i i) = v ⟨i, hi⟩ • B.lcol ρ i i := by rw [mulVec_smul]; rfl
  rw [quad_Mi, hl, hw, e, mulVec_smul, smul_dotProduct, dotProduct_smul, smul_dotProduct, dotProduct_smul]
  simp only [smul_eq_mul]
  ring

end Base

namespace Close

variable {u : ℝ} (hu : 0 ≤ u) {B B₀ : Base} {ρ ρ₀ : Var → ℝ} (h : Close u B ρ B₀ ρ₀)
include h hu

theorem own {i : ℕ} (hi : i < B.n) : NearS u (4 * (2 * B.n + 3)) (|B.massV ρ i| * (1 + len (B.comV ρ i)) ^ 2 + entries (B.inertiaV ρ i))
    (B.massV ρ i * (B.pcol ρ i i ⬝ᵥ B.pcol ρ i i) + B.lcol ρ i i ⬝ᵥ B.inertiaV ρ i *ᵥ B.lcol ρ i i)
    (B₀.massV ρ₀ i * (B₀.pcol ρ₀ i i ⬝ᵥ B₀.pcol ρ₀ i i) + B₀.lcol ρ₀ i i ⬝ᵥ B₀.inertiaV ρ₀ i *ᵥ B₀.lcol ρ₀ i i) := by
  have h0 : NearV u (2 * (i + 1) + 3) (len (B.comV ρ i)) (SX.vec ρ (B.Ocm i) 3 - B.posV ρ (i + 1)) (SX.vec ρ₀ (B₀.Ocm i) 3 - B₀.posV ρ₀ (i + 1)) := by
    have h2 := (h.R hu (i := i + 1) hi).mulVec hu (nearV_self (u := u) (le_refl (len (B.comV ρ i))))
    rw [one_mul] at h2
    rw [Base.vec_Ocm, Base.vec_Ocm, ← h.com i hi, add_sub_cancel_left, add_sub_cancel_left]
    exact h2
  have hp : NearV u (2 * (2 * B.n + 3)) (1 + len (B.comV ρ i)) (B.pcol ρ i i) (B₀.pcol ρ₀ i i) := by
    unfold Base.pcol
    rw [if_pos le_rfl, if_pos le_rfl]
    exact (h.posCol hu hi (len_nonneg _) h0).mono hu (by omega) le_rfl
  have h1 := (hp.dot hu hp).mul_left (B.massV ρ i)
  have h2 := (h.lcol hu hi i).dot hu ((nearM_entries (B.inertiaV ρ i)).mulVec hu (h.lcol hu hi i))
  rw [← h.mass i hi, ← h.inertia i hi]
  exact (h1.mono hu (by omega) (le_of_eq (by ring))).add (h2.mono hu (by omega) (le_of_eq (by ring)))

theorem posdef (hU : B₀.UnitAngles) (hp : Physical (B.dynV ρ) B.n)
    (ho : ∀ i < B.n, gap u (4 * (2 * B.n + 3)) * (|B.massV ρ i| * (1 + len (B.comV ρ i)) ^ 2 + entries (B.inertiaV ρ i)) <
      ownInertia (B₀.dynV ρ₀) i (B₀.kind i)) {v : Fin B.n → ℝ} (hv : v ≠ 0) : 0 < v ⬝ᵥ SX.val ρ B.M B.n B.n *ᵥ v := by
  classical
  have hex : ∃ i, ∃ hi : i < B.n, v ⟨i, hi⟩ ≠ 0 := by
    by_contra hc
    push Not at hc
    exact hv (funext fun j => hc j j.2)
  obtain ⟨hi, hne⟩ := Nat.find_spec hex
  have hz : ∀ j : Fin B.n, (j : ℕ) < Nat.find hex → v j = 0 := by
    intro j hj
    by_contra hc
    exact Nat.find_min hex hj ⟨j.2, hc⟩
  rw [Base.quad_M]
  refine Finset.sum_pos' (fun i hi => Base.nonneg_Mi ρ hp (Finset.mem_range.1 hi) v) ⟨_, Finset.mem_range.2 hi, ?_⟩
  rw [Base.quad_first ρ hi hz]
  refine mul_pos (by positivity) ?_
  have hi₀ : Nat.find hex < B₀.n := by rw [h.n]; exact hi
  have e := Base.quad_own' ρ₀ h.wf₀ hU hi₀ (v := Pi.single ⟨Nat.find hex, hi₀⟩ 1) fun j hj =>
    Pi.single_eq_of_ne (fun e => absurd (congrArg Fin.val e) (ne_of_lt hj)) _
  rw [Base.quad_first ρ₀ hi₀ (fun j hj => Pi.single_eq_of_ne (fun e => absurd (congrArg Fin.val e) (ne_of_lt hj)) _), Pi.single_eq_same, one_pow, one_mul,
    one_mul] at e
  have h1 := (abs_le.1 (h.own hu hi).diff).1
  have h2 := ho _ hi
  rw [← e] at h2
  linarith

end Close

/-! ### Sizes -/

section

variable {c : Conf} (hn : 0 < c.n) (ht : Typed c) (s : State c)

include hn ht in
theorem off_env {i : ℕ} (hi : i < c.n) : (base c).off (env c s) i = offset c s.q i := by
  have hB := base_wf hn ht
  have e0 := eval_par s (k := .DH) rfl trivial (show i * 4 < c.n * 4 by omega)
  have e2 := eval_par s (k := .DH) rfl trivial (show i * 4 + 2 < c.n * 4 by omega)
  have hq : Expr.eval (env c s) ((base c).q.e i 0) = s.q ⟨i, hi⟩ := by
    rw [Base.q_e hB hi]
    exact env_q s hi
  have hdh : (base c).dh = kmod c .DH := rfl
  unfold Base.off offset
  rw [dif_pos hi, ← kind_base, Base.kind, Base.dE, Nat.mul_comm 4 i]
  by_cases hP : isP ((base c).ty i)
  · simp only [hP, if_true]
    rw [Expr.eval_sadd, hq, hdh, e0, e2]
    rfl
  · simp only [hP, if_false]
    rw [hdh, e0, e2, add_zero]
    rfl

include hn ht in
theorem reach_env {i : ℕ} (hi : i ≤ c.n) : ∑ k ∈ Finset.range i, (base c).off (env c s) k = reach c s.q i :=
  Finset.sum_congr rfl fun k hk => off_env hn ht s (by have := Finset.mem_range.1 hk; omega)

theorem mass_env {i : ℕ} (hi : i < c.n) : (base c).massV (env c s) i = mass c.dyn i := by
  rw [Base.massV_eq]; exact mass_congr (fun _ hk => dynV_env s hk) hi
theorem com_env {i : ℕ} (hi : i < c.n) : (base c).comV (env c s) i = com c.dyn i := by
  rw [Base.comV_eq]; exact com_congr (fun _ hk => dynV_env s hk) hi
theorem inertia_env {i : ℕ} (hi : i < c.n) : (base c).inertiaV (env c s) i = inertia c.dyn i := by
  rw [Base.inertiaV_eq]; exact inertia_congr (fun _ hk => dynV_env s hk) hi

include hn ht in
theorem arm_env {i : ℕ} (hi : i < c.n) : (base c).arm (env c s) i = arm c s.q i := by
  rw [Base.arm, reach_env hn ht s (show i + 1 ≤ c.n from hi), com_env s hi]; rfl

include hn ht in
theorem massSize_env : ∑ i ∈ Finset.range c.n, (|(base c).massV (env c s) i| * (base c).arm (env c s) i ^ 2 + entries ((base c).inertiaV (env c s) i)) =
    massSize c s.q :=
  Finset.sum_congr rfl fun i hi => by
    have hi := Finset.mem_range.1 hi
    rw [mass_env s hi, arm_env hn ht s hi, inertia_env s hi]
include hn ht in
theorem rateSize_env : (base c).dsize (env c s) = rateSize c s.q :=
  Finset.sum_congr rfl fun i hi => by
    have hi : i < c.n := Finset.mem_range.1 hi
    rw [mass_env s hi, arm_env hn ht s hi, inertia_env s hi]
include hn ht in
theorem gravitySize_env : ∑ i ∈ Finset.range c.n, |(base c).massV (env c s) i| * ((base c).arm (env c s) i * len (SX.vec (env c s) (base c).g 3)) =
    gravitySize c s.q :=
  Finset.sum_congr rfl fun i hi => by
    have hi := Finset.mem_range.1 hi
    rw [mass_env s hi, arm_env hn ht s hi, gV_env]

theorem mountPos_env : (base c).posV (env c s) 0 = fun k : Fin 3 => c.w2l k := by
  ext a
  show SX.vec (env c s) (traB (getTransform (base c).w2l)) 3 a = _
  rw [(Base.getTransform_isHomOf (base c).w2l).vec_tra]
  have : Expr.eval (env c s) ((base c).w2l.e a 0) = c.w2l a := eval_par s (k := .W2L) rfl trivial (show (a : ℕ) < 6 by omega)
  simpa [SX.block] using this
theorem toolPos_env : SX.vec (env c s) (traB (getTransform (base c).ee)) 3 = fun k : Fin 3 => c.ee k := by
  ext a
  rw [(Base.getTransform_isHomOf (base c).ee).vec_tra]
  have : Expr.eval (env c s) ((base c).ee.e a 0) = c.ee a := eval_par s (k := .EE) rfl trivial (show (a : ℕ) < 6 by omega)
  simpa [SX.block] using this

theorem rot_val (ρ : Var → ℝ) (A : SX) : rot (SX.val ρ A 4 4) = SX.val ρ (rotB A) 3 3 := by ext i j; rw [val_rotB_apply]; rfl
theorem pos_val (ρ : Var → ℝ) (A : SX) : pos (SX.val ρ A 4 4) = SX.vec ρ (traB A) 3 := by ext i; simp [pos, traB, SX.block]

/-! ### The mass matrix as a function -/

/-- The mass matrix at the position `q`. -/
def massAt (c : Conf) (q : Fin c.n → ℝ) : Matrix (Fin c.n) (Fin c.n) ℝ := SX.val (env c ⟨q, 0, 0, 0, 0, 0, 0, 0, 0, 0⟩) (base c).M c.n c.n

include hn ht

theorem val_massAt : SX.val (env c s) (base c).M c.n c.n = massAt c s.q := by
  refine Base.val_M_env (B := base c) (base_wf hn ht) fun v hv => ?_
  have key : ∀ k : Key, k = .q ∨ k.isVar = false → v.name = k.sym → env c s v = env c ⟨s.q, 0, 0, 0, 0, 0, 0, 0, 0, 0⟩ v := by
    intro k hk hs
    obtain ⟨nm, i⟩ := v
    obtain rfl : nm = k.sym := hs
    rw [env_key, env_key]
    rcases hk with rfl | hk
    · rfl
    · rw [at_par s hk, at_par _ hk]
  simp only [List.mem_cons, List.not_mem_nil, or_false] at hv
  rcases hv with h | h | h | h
  · exact key .q (.inl rfl) h
  · exact key .DH (.inr rfl) h
  · exact key .W2L (.inr rfl) h
  · exact key .DYN (.inr rfl) h

theorem massAt_q (q : Fin c.n → ℝ) : SX.val (setV "q" (env c s) q) (base c).M c.n c.n = massAt c q := by
  rw [setV_q]
  exact val_massAt hn ht _

theorem diff_massAt (q : Fin c.n → ℝ) (a b k : Fin c.n) : DifferentiableAt ℝ (fun x => massAt c (Function.update q k x) a b) (q k) := by
  have h0 : DifferentiableAt ℝ (fun x => SX.val (setV "q" (env c ⟨q, 0, 0, 0, 0, 0, 0, 0, 0, 0⟩) (Function.update q k x)) (base c).M c.n c.n a b) (q k) :=
    (C13_christoffel (base_wf hn ht) (env c _) q).1 a b k
  simpa only [massAt_q hn ht] using h0

theorem val_C_massAt : SX.val (env c s) (base c).C c.n c.n = christoffel (massAt c) s.q s.dq := by
  have h : ∀ h j : Fin c.n, SX.val (setV "q" (env c s) s.q) (base c).C c.n c.n h j = 1 / 2 * ∑ k : Fin c.n,
      (deriv (fun x => SX.val (setV "q" (env c s) (Function.update s.q k x)) (base c).M c.n c.n h j) (s.q k) +
       deriv (fun x => SX.val (setV "q" (env c s) (Function.update s.q j x)) (base c).M c.n c.n h k) (s.q j) -
       deriv (fun x => SX.val (setV "q" (env c s) (Function.update s.q h x)) (base c).M c.n c.n j k) (s.q h)) * env c s ⟨"dq", k⟩ :=
    (C13_christoffel (base_wf hn ht) (env c s) s.q).2
  have hdq : ∀ k : Fin c.n, env c s ⟨"dq", k⟩ = s.dq k := by
    intro k
    have := env_key s .dq k
    simp only [Spec.State.at, dif_pos k.2] at this
    exact this
  simp only [massAt_q hn ht s, setV_q_self, hdq] at h
  ext a b
  exact h a b

/-- The rate of the mass matrix. -/
theorem massAt_dot {q : ℝ → Fin c.n → ℝ} {t : ℝ} (h0 : q t = s.q) (hq : ∀ i, HasDerivAt (fun x => q x i) (s.dq i) t) (a b : Fin c.n) :
    HasDerivAt (fun x => massAt c (q x) a b) (SX.val (env c s) (base c).Mdot c.n c.n a b) t := by
  have hB := base_wf hn ht
  have h : HasDerivAt (fun x => SX.val (setV "q" (env c s) (q x)) (base c).M c.n c.n a b)
      (SX.val (setV "q" (setV "dq" (env c s) s.dq) (q t)) (base c).Mdot c.n c.n a b) t :=
    Base.hasDerivAt_jtimes₁ hB (fun S => Base.smooth_M (S := S) hB) (Base.over_M_q hB) (env c s) hq c.n c.n a b
  simp only [massAt_q hn ht s] at h
  rw [h0, setV_dq] at h
  have e : setV "q" (env c { s with dq := s.dq }) s.q = env c s := setV_q s s.q
  rw [e] at h
  exact h

end

end

end Thunder
