import Verif.Lemmas.System
import Verif.Props.Kinematics
import Verif.Props.Pinv
import Verif.Props.Dynamics

/-!
# The values of the library functions and the mechanism of the file
-/

open scoped Classical
open Matrix

namespace Thunder

noncomputable section

open Spec Robot SX

variable {c : Conf} {s : State c}

/-! ## Shapes -/

theorem parVec_kmod {k : Key} (h : k.here c) : ParVec k.sym (k.size c) (kmod c k) := by
  rw [kmod_here h]
  exact k.parSym.toParVec

theorem base_wf (hn : 0 < c.n) (ht : Typed c) : (base c).WF where
  npos := hn
  len := rfl
  types := fun _ hi => ht _ (ty_mem hi)
  q := kmod_var (k := .q) trivial rfl
  dq := kmod_var (k := .dq) trivial rfl
  ddq := kmod_var (k := .ddq) trivial rfl
  d3q := kmod_var (k := .d3q) trivial rfl
  dqr := kmod_var (k := .dqr) trivial rfl
  ddqr := kmod_var (k := .ddqr) trivial rfl
  w := kmod_var (k := .w) trivial rfl
  dh := parVec_kmod (k := .DH) trivial
  w2l := parVec_kmod (k := .W2L) trivial
  ee := parVec_kmod (k := .EE) trivial
  g := parVec_kmod (k := .grav) trivial
  dyn := parVec_kmod (k := .DYN) trivial

/-! ## Values of the entries -/

theorem eval_par (s : State c) {k : Key} (hk : k.isVar = false) (hh : k.here c) {i : ℕ} (hi : i < k.size c) :
    Expr.eval (env c s) ((kmod c k).e i 0) = k.val c i := by
  rw [kmod_here hh]
  by_cases hf : k.flag c i = 0
  · rw [Key.mat_num hi hf]; rfl
  · rw [Key.mat_sym hi hf]
    exact env_par s hk i

theorem const_par {k : Key} (hh : k.here c) {i : ℕ} (hi : i < k.size c) {a : ℝ} (h : (kmod c k).e i 0 = .const a) : k.flag c i = 0 ∧ a = k.val c i := by
  rw [kmod_here hh] at h
  by_cases hf : k.flag c i = 0
  · rw [Key.mat_num hi hf] at h
    exact ⟨hf, (Expr.const.inj h).symm⟩
  · rw [Key.mat_sym hi hf] at h
    cases h

variable [Fl]

theorem ang_par_state (s : State c) {k : Key} (hk : k.isVar = false) (hh : k.here c) {i : ℕ} (hi : i < k.size c) :
    ang (env c s) ((kmod c k).e i 0) = angleOf (k.flag c i) (k.val c i) := by
  rw [kmod_here hh]
  unfold angleOf
  by_cases hf : k.flag c i = 0
  · rw [Key.mat_num hi hf, if_pos hf]; rfl
  · rw [Key.mat_sym hi hf, if_neg hf]
    show cs (env c s ⟨k.sym, i⟩) = _
    rw [env_par s hk]

omit [Fl] in
theorem kind_base (i : ℕ) : (base c).kind i = kindOf c i := by
  have h : isP ((base c).ty i) ↔ c.types.getD i "" ∈ ["P", "P_SEA"] := by
    rw [List.mem_cons, List.mem_singleton]
    exact Iff.rfl
  unfold Base.kind kindOf
  by_cases hp : isP ((base c).ty i)
  · rw [if_pos hp, if_pos (h.1 hp)]
  · rw [if_neg hp, if_neg (mt h.2 hp)]

omit [Fl] in
theorem isP_iff {i : ℕ} : isP ((base c).ty i) ↔ kindOf c i = .prismatic := by
  rw [← kind_base, Base.kind]
  split_ifs with h <;> simp [h]

omit [Fl] in
theorem env_q (s : State c) {i : ℕ} (hi : i < c.n) : env c s ⟨"q", i⟩ = s.q ⟨i, hi⟩ := by
  have := env_key s .q i
  simp only [Spec.State.at, dif_pos hi] at this
  exact this

omit [Fl] in
theorem numAngle_of {a : ℝ} (h : (base c).NumAngle a) : NumericAngle c a := by
  rcases h with ⟨i, hi, h | ⟨hP, h⟩⟩ | ⟨k, h1, h2, h | h⟩
  · obtain ⟨h3, h4⟩ := const_par (k := .DH) trivial (show i * 4 + 1 < c.n * 4 by have : i < c.n := hi; omega) h
    refine .inl ⟨i, hi, ?_⟩
    rw [Nat.mul_comm]
    exact ⟨h3, h4⟩
  · obtain ⟨h3, h4⟩ := const_par (k := .DH) trivial (show i * 4 + 3 < c.n * 4 by have : i < c.n := hi; omega) h
    refine .inr (.inl ⟨i, hi, isP_iff.1 hP, ?_⟩)
    rw [Nat.mul_comm]
    exact ⟨h3, h4⟩
  · exact .inr (.inr ⟨k, h1, h2, .inl (const_par (k := .W2L) trivial h2 h)⟩)
  · exact .inr (.inr ⟨k, h1, h2, .inr (const_par (k := .EE) trivial h2 h)⟩)

theorem base_unit (h : UnitNumeric c) : (base c).UnitAngles := fun a ha => h a (numAngle_of ha)

/-! ## Frames -/

theorem val_Ti (hn : 0 < c.n) (ht : Typed c) (s : State c) {i : ℕ} (hi : i < c.n) :
    SX.val (env c s) ((base c).Ti (i + 1)) 4 4 = linkOf c i (s.q ⟨i, hi⟩) := by
  have hB := base_wf hn ht
  have e0 := eval_par s (k := .DH) rfl trivial (show i * 4 < c.n * 4 by omega)
  have e2 := eval_par s (k := .DH) rfl trivial (show i * 4 + 2 < c.n * 4 by omega)
  have e3 := eval_par s (k := .DH) rfl trivial (show i * 4 + 3 < c.n * 4 by omega)
  have a1 := ang_par_state s (k := .DH) rfl trivial (show i * 4 + 1 < c.n * 4 by omega)
  have a3 := ang_par_state s (k := .DH) rfl trivial (show i * 4 + 3 < c.n * 4 by omega)
  have hq : Expr.eval (env c s) ((base c).q.e i 0) = s.q ⟨i, hi⟩ := by
    rw [Base.q_e hB hi]
    exact env_q s hi
  rw [(C01_pairs (B := base c) (env c s) i).1]
  unfold linkOf
  rw [← kind_base, Base.kind]
  have hdh : (base c).dh = kmod c .DH := rfl
  rw [Nat.mul_comm 4 i]
  by_cases hP : isP ((base c).ty i)
  · simp only [hP, if_true]
    unfold Base.alphaE Base.dE Base.thetaE
    rw [if_pos hP, if_pos hP, Expr.eval_sadd, hq, hdh, e0, e2, a1, a3]
    rfl
  · simp only [hP, if_false]
    rw [ang_of_notConst (Base.thetaE_notConst hB hi hP)]
    unfold Base.alphaE Base.dE Base.thetaE
    rw [if_neg hP, if_neg hP, Expr.eval_sadd, hq, hdh, e0, e2, e3, a1]
    rfl

theorem val_mount (s : State c) {k : Key} (hk : k.isVar = false) (hh : k.here c) (h6 : k.size c = 6) :
    SX.val (env c s) (getTransform (kmod c k)) 4 4 = mountOf (k.flag c) (k.val c) := by
  rw [val_getTransform_pairs, ang_par_state s hk hh (by omega), ang_par_state s hk hh (by omega), ang_par_state s hk hh (by omega)]
  unfold mountOf
  congr 1
  funext i
  exact eval_par s hk hh (by omega)

theorem val_T0 (hn : 0 < c.n) (ht : Typed c) (s : State c) {i : ℕ} (hi : i ≤ c.n) :
    SX.val (env c s) ((base c).T0 i) 4 4 = linkFrame c s.q i := by
  induction i with
  | zero => exact val_mount s (k := .W2L) rfl trivial rfl
  | succ i ih =>
    have h : i < c.n := hi
    rw [(C01_pairs (B := base c) (env c s) i).2.2.1, ih (by omega), val_Ti hn ht s h, linkFrame, dif_pos h]

theorem val_T0ee (hn : 0 < c.n) (ht : Typed c) (s : State c) : SX.val (env c s) (base c).T0ee 4 4 = toolFrame c s.q := by
  rw [Base.T0ee, SX.val_mtimes (env c s) _ _ 4 4 4 ((base c).T0_cols _)]
  have h1 := val_T0 hn ht s (le_refl c.n)
  have h2 := val_mount s (k := .EE) rfl trivial rfl
  unfold toolFrame
  rw [← h1]
  exact congrArg _ h2

theorem isRigid_linkFrame (hn : 0 < c.n) (ht : Typed c) (hU : UnitNumeric c) (q : Fin c.n → ℝ) (s : State c) :
    (∀ i ≤ c.n, IsRigid (linkFrame c q i)) ∧ IsRigid (toolFrame c q) := by
  have h := C02_rigid (base_wf hn ht) (base_unit hU) (env c { s with q := q })
  refine ⟨fun i hi => ?_, ?_⟩
  · have := h.2.1 i hi
    rwa [val_T0 hn ht _ hi] at this
  · have := h.2.2
    rwa [val_T0ee hn ht] at this

end

end Thunder
