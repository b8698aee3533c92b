import Verif.Lemmas.SystemDyn
import Verif.Props.Friction
import Verif.Props.RegLin

/-!
# The regressors and the friction of a robot built from a file
-/

set_option linter.unusedSectionVars false

open scoped Classical
open Matrix

namespace Thunder

noncomputable section

open Spec Robot SX

variable {c : Conf} [Fl]

/-! ## Values that do not depend on some parameters -/

/-- The value of a function depends on its arguments only. -/
theorem val_agree {c' : Conf} (hn : 0 < c.n) (ht : Typed c) (s : State c) (s' : State c') {f : Fn} (hv : f.Valid c)
    (h : ∀ k ∈ f.sure ++ f.pos c.n, ∀ i, env c' s' ⟨k.sym, i⟩ = env c s ⟨k.sym, i⟩) (m n : ℕ) :
    SX.val (env c' s') (f.expr (base c) c) m n = SX.val (env c s) (f.expr (base c) c) m n := by
  ext i j
  refine Expr.eval_congr fun v hv' => ?_
  obtain ⟨k, hk, hvk⟩ := (Fn.rel_self hn ht hv).over i j hv'
  obtain ⟨nm, ix⟩ := v
  have := (Key.mem_vars.1 hvk).1
  simp only at this
  subst this
  exact h k hk ix

/-! ## The regressor of the inertial parameters -/

section
variable (B : Base) (D : SX)
theorem Ti_dyn (i : ℕ) : ({ B with dyn := D } : Base).Ti i = B.Ti i := by cases i <;> rfl
theorem T0_dyn (i : ℕ) : ({ B with dyn := D } : Base).T0 i = B.T0 i := by
  induction i with
  | zero => rfl
  | succ i ih => simp only [Base.T0, ih, Ti_dyn]
theorem T0ee_dyn : ({ B with dyn := D } : Base).T0ee = B.T0ee := by
  simp only [Base.T0ee, T0_dyn]
theorem posCol_dyn (O : SX) (j : ℕ) : ({ B with dyn := D } : Base).posCol O j = B.posCol O j := by
  simp only [Base.posCol, Base.ty, Base.K0, Base.P0, T0_dyn]
  rfl
theorem orCol_dyn (j : ℕ) : ({ B with dyn := D } : Base).orCol j = B.orCol j := by
  simp only [Base.orCol, Base.ty, Base.K0, T0_dyn]
  rfl
theorem imod_dyn (i : ℕ) : ({ B with dyn := D } : Base).imod i = B.imod i := rfl
theorem R0_dyn (i : ℕ) : ({ B with dyn := D } : Base).R0 i = B.R0 i := by
  simp only [Base.R0, T0_dyn]
theorem J_dyn (i : ℕ) : ({ B with dyn := D } : Base).J i = B.J i := by
  simp only [Base.J, Base.Jv, Base.Jw, Base.posJac, Base.orJac, posCol_dyn, orCol_dyn, imod_dyn, R0_dyn, Base.P0, T0_dyn]
theorem M0_dyn (i : ℕ) : ({ B with dyn := D } : Base).M0 i = B.M0 i := by
  simp only [Base.M0, Base.Yv, J_dyn]
theorem M1_dyn (i l : ℕ) : ({ B with dyn := D } : Base).M1 i l = B.M1 i l := by
  simp only [Base.M1, Base.Yv, Base.Yw, J_dyn, R0_dyn]
theorem M2_dyn (i l : ℕ) : ({ B with dyn := D } : Base).M2 i l = B.M2 i l := by
  simp only [Base.M2, Base.Yw, J_dyn, R0_dyn]
theorem regM_dyn : ({ B with dyn := D } : Base).regM = B.regM := by
  have : ({ B with dyn := D } : Base).regMi = B.regMi := by
    funext i
    simp only [Base.regMi, Base.dX0, Base.dX1, Base.dX2, M0_dyn, M1_dyn, M2_dyn]
  unfold Base.regM
  rw [this]; rfl
theorem regC_dyn : ({ B with dyn := D } : Base).regC = B.regC := by
  have : ({ B with dyn := D } : Base).regCi = B.regCi := by
    funext i
    simp only [Base.regCi, Base.W0, Base.W1, Base.W2, M0_dyn, M1_dyn, M2_dyn, Base.cor]
  unfold Base.regC
  rw [this]; rfl
theorem regG_dyn : ({ B with dyn := D } : Base).regG = B.regG := by
  have : ({ B with dyn := D } : Base).regGi = B.regGi := by
    funext i
    simp only [Base.regGi, Base.Z0, Base.Z1, Base.Yv, J_dyn, R0_dyn]
  unfold Base.regG
  rw [this]; rfl
end

/-- The same state of the robot with other inertial parameters. -/
def State.withDyn (s : State c) (p : ℕ → ℝ) : State (Spec.withDyn c p) := ⟨s.q, s.dq, s.ddq, s.d3q, s.dqr, s.ddqr, s.w, s.x, s.dx, s.ddx⟩

omit [Fl] in
theorem at_withDyn (s : State c) (p : ℕ → ℝ) {k : Key} (hk : k ≠ .DYN) : (State.withDyn s p).at k = s.at k := by
  cases k <;> first | rfl | exact absurd rfl hk

omit [Fl] in
theorem env_withDyn (s : State c) (p : ℕ → ℝ) {k : Key} (hk : k ≠ .DYN) (i : ℕ) :
    env (withDyn c p) (State.withDyn s p) ⟨k.sym, i⟩ = env c s ⟨k.sym, i⟩ := by rw [env_key, env_key, at_withDyn s p hk]

theorem numeric_withDyn (p : ℕ → ℝ) : UnitNumeric c ↔ UnitNumeric (withDyn c p) := Iff.rfl

omit [Fl] in
theorem base_withDyn (p : ℕ → ℝ) : base (withDyn c p) = { base c with dyn := kmod (withDyn c p) .DYN } := rfl

section

variable (hn : 0 < c.n) (ht : Typed c) (hU : UnitNumeric c) (s : State c)
include hn ht hU

theorem dynV_withDyn (p : ℕ → ℝ) : (fun k : Fin (10 * c.n) => reg ((base (withDyn c p)).dynV (env (withDyn c p) (State.withDyn s p))) k) =
    fun k : Fin (10 * c.n) => reg p k :=
  funext fun k => reg_congr (n := c.n) (fun _ hk => dynV_env (c := withDyn c p) (State.withDyn s p) hk) k.2

theorem env_dqr (s : State c) (k : Fin c.n) : env c s ⟨"dqr", k⟩ = s.dqr k := by
  have := env_key s .dqr k
  simp only [Spec.State.at, dif_pos k.2] at this
  exact this
theorem env_ddqr (s : State c) (k : Fin c.n) : env c s ⟨"ddqr", k⟩ = s.ddqr k := by
  have := env_key s .ddqr k
  simp only [Spec.State.at, dif_pos k.2] at this
  exact this

theorem reg_M (p : ℕ → ℝ) : SX.val (env c s) (base c).regM c.n (10 * c.n) *ᵥ (fun k => reg p k) = massOf (withDyn c p) s.q *ᵥ s.ddqr := by
  have h1 : SX.val (env (withDyn c p) (State.withDyn s p)) (base c).regM c.n (10 * c.n) = SX.val (env c s) (base c).regM c.n (10 * c.n) :=
    val_agree hn ht s (State.withDyn s p) (f := .regM) trivial (fun k hk i => env_withDyn s p (by rintro rfl; simp [Fn.sure, Fn.pos] at hk) i) _ _
  have h2 : SX.val (env (withDyn c p) (State.withDyn s p)) (base (withDyn c p)).regM c.n (10 * c.n) *ᵥ
        (fun k : Fin (10 * c.n) => reg ((base (withDyn c p)).dynV (env (withDyn c p) (State.withDyn s p))) k) =
      SX.val (env (withDyn c p) (State.withDyn s p)) (base (withDyn c p)).M c.n c.n *ᵥ
        fun j : Fin c.n => env (withDyn c p) (State.withDyn s p) ⟨"ddqr", j⟩ :=
    C23_M (B := base (withDyn c p)) (base_wf hn ht) (base_unit hU) (env (withDyn c p) (State.withDyn s p))
  rw [dynV_withDyn hn ht hU s, show (base (withDyn c p)).regM = (base c).regM by rw [base_withDyn, regM_dyn], h1] at h2
  rw [h2]
  have h3 : SX.val (env (withDyn c p) (State.withDyn s p)) (base (withDyn c p)).M c.n c.n = massOf (withDyn c p) s.q :=
    val_M (c := withDyn c p) hn ht hU (State.withDyn s p)
  rw [h3]
  congr 1
  funext j
  exact env_ddqr (c := withDyn c p) hn ht hU (State.withDyn s p) j

theorem reg_C (p : ℕ → ℝ) : SX.val (env c s) (base c).regC c.n (10 * c.n) *ᵥ (fun k => reg p k) = coriolisOf (withDyn c p) s.q s.dq *ᵥ s.dqr := by
  have h1 : SX.val (env (withDyn c p) (State.withDyn s p)) (base c).regC c.n (10 * c.n) = SX.val (env c s) (base c).regC c.n (10 * c.n) :=
    val_agree hn ht s (State.withDyn s p) (f := .regC) trivial (fun k hk i => env_withDyn s p (by rintro rfl; simp [Fn.sure, Fn.pos] at hk) i) _ _
  have h2 : SX.val (env (withDyn c p) (State.withDyn s p)) (base (withDyn c p)).regC c.n (10 * c.n) *ᵥ
        (fun k : Fin (10 * c.n) => reg ((base (withDyn c p)).dynV (env (withDyn c p) (State.withDyn s p))) k) =
      SX.val (env (withDyn c p) (State.withDyn s p)) (base (withDyn c p)).C c.n c.n *ᵥ
        fun j : Fin c.n => env (withDyn c p) (State.withDyn s p) ⟨"dqr", j⟩ :=
    C23_C (B := base (withDyn c p)) (base_wf hn ht) (base_unit hU) (env (withDyn c p) (State.withDyn s p))
  rw [dynV_withDyn hn ht hU s, show (base (withDyn c p)).regC = (base c).regC by rw [base_withDyn, regC_dyn], h1] at h2
  rw [h2]
  have h3 : SX.val (env (withDyn c p) (State.withDyn s p)) (base (withDyn c p)).C c.n c.n = coriolisOf (withDyn c p) s.q s.dq :=
    val_C (c := withDyn c p) hn ht hU (State.withDyn s p)
  rw [h3]
  congr 1
  funext j
  exact env_dqr (c := withDyn c p) hn ht hU (State.withDyn s p) j

theorem reg_G (p : ℕ → ℝ) : SX.val (env c s) (base c).regG c.n (10 * c.n) *ᵥ (fun k => reg p k) = gravityOf (withDyn c p) s.q := by
  have h1 : SX.val (env (withDyn c p) (State.withDyn s p)) (base c).regG c.n (10 * c.n) = SX.val (env c s) (base c).regG c.n (10 * c.n) :=
    val_agree hn ht s (State.withDyn s p) (f := .regG) trivial (fun k hk i => env_withDyn s p (by rintro rfl; simp [Fn.sure, Fn.pos] at hk) i) _ _
  have h2 : SX.val (env (withDyn c p) (State.withDyn s p)) (base (withDyn c p)).regG c.n (10 * c.n) *ᵥ
        (fun k : Fin (10 * c.n) => reg ((base (withDyn c p)).dynV (env (withDyn c p) (State.withDyn s p))) k) =
      SX.vec (env (withDyn c p) (State.withDyn s p)) (base (withDyn c p)).G c.n :=
    C23_G (B := base (withDyn c p)) (base_wf hn ht) (base_unit hU) (env (withDyn c p) (State.withDyn s p))
  rw [dynV_withDyn hn ht hU s, show (base (withDyn c p)).regG = (base c).regG by rw [base_withDyn, regG_dyn], h1] at h2
  rw [h2]
  exact vec_G (c := withDyn c p) hn ht hU (State.withDyn s p)

theorem reg_Y : SX.val (env c s) (base c).Yr c.n (10 * c.n) =
    SX.val (env c s) (base c).regM c.n (10 * c.n) + SX.val (env c s) (base c).regC c.n (10 * c.n) + SX.val (env c s) (base c).regG c.n (10 * c.n) :=
  C23_split (base_wf hn ht) (env c s)

end

end

end Thunder
