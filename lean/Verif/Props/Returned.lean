import Verif.Spec.Returned
import Verif.Props.System
import Verif.Props.Dynamics
import Verif.Props.Friction
import Verif.Props.Regressor
import Verif.Props.Balance
import Verif.Props.Mount

/-!
# C01 – C08, C10, C11, C13 – C15, C18 – C22 for the values that are returned

The theorems on the expressions (`Props/Kinematics.lean` and others) carried over to what `get` of a robot built from a file, or a getter of the generated
class, returns in every state.  No hypothesis on the cosines and sines of numeric angles, except where it is written.
-/

open scoped Classical
open Matrix

namespace Thunder

noncomputable section

open Spec Robot SX

section

variable [Fl] {y : Yaml} {c : Conf}

/-- The answers in all states are determined: every state can be reached. -/
theorem law_unique (hc : Tunes y c) {f : String} {m n : ℕ} {F G : State c → Matrix (Fin m) (Fin n) ℝ} (hF : Law y c f F) (hG : Law y c f G) : F = G := by
  obtain ⟨c₀, h, hj, ht⟩ := hc
  funext s
  obtain ⟨r, hr⟩ := C56_reachable h hj ht s
  obtain ⟨a, ⟨r₁, ea⟩, -, -, -, ha⟩ := hF s _ (.robot hr)
  obtain ⟨b, ⟨r₂, eb⟩, -, -, -, hb⟩ := hG s _ (.robot hr)
  rw [ea] at eb
  cases eb
  ext i j
  have := (ha i j).symm.trans (hb i j)
  exact Option.some.inj (Option.some.inj this)

theorem law_of {f : Fn} (hf : f.Valid c) {nm : String} (hm : f.name = nm) {m n : ℕ} (h1 : f.rows c = m) (h2 : f.cols c = n) :
    Law y c nm fun s => SX.val (env c s) (f.expr (base c) c) m n := fun _ _ h => h.gives f hf hm h1 h2 rfl

theorem lawVec_of {f : Fn} (hf : f.Valid c) {nm : String} (hm : f.name = nm) {m : ℕ} (h1 : f.rows c = m) (h2 : f.cols c = 1) :
    LawVec y c nm fun s => SX.vec (env c s) (f.expr (base c) c) m := fun _ _ h => h.givesVec f hf hm h1 h2 rfl

omit [Fl] in
theorem Spec.Tunes.wf (hc : Tunes y c) : (base c).WF := by
  obtain ⟨c₀, -, hj, h⟩ := hc
  exact base_wf (h.joints hj).1 (typed_of (h.joints hj))

omit [Fl] in
theorem hasDerivAt_update_at {n : ℕ} (v : Fin n → ℝ) (e i : Fin n) :
    HasDerivAt (fun t => Function.update v e t i) ((Pi.single e 1 : Fin n → ℝ) i) (v e) := by
  by_cases h : i = e
  · subst h
    simpa using hasDerivAt_id' (v i)
  · simpa [Function.update_of_ne h, Pi.single_eq_of_ne h] using hasDerivAt_const (v e) (v i)

/-- C01: the frames returned are those of the modified Denavit–Hartenberg convention, when the cosines and sines of the numeric angles are exact. -/
theorem C01_get {s : State c} {R : String → Mat → Prop} (h : Source y c s R) (hE : ExactNumeric c) :
    (∀ i (hi : i < c.n), Returns R ("T_" ++ toString (i + 1)) (link (kindOf c i) (fun k => c.dh (4 * i + k)) (s.q ⟨i, hi⟩))) ∧
    ∃ T : ℕ → Matrix (Fin 4) (Fin 4) ℝ, (∀ i ≤ c.n, Returns R ("T_0_" ++ toString i) (T i)) ∧
      T 0 = frame (fun k => c.w2l k) (cs (c.w2l 3)) (cs (c.w2l 4)) (cs (c.w2l 5)) ∧
      (∀ i (hi : i < c.n), T (i + 1) = T i * link (kindOf c i) (fun k => c.dh (4 * i + k)) (s.q ⟨i, hi⟩)) ∧
      Returns R ("T_0_" ++ toString (c.n + 1)) (T c.n * frame (fun k => c.ee k) (cs (c.ee 3)) (cs (c.ee 4)) (cs (c.ee 5))) ∧
      Returns R "T_0_ee" (T c.n * frame (fun k => c.ee k) (cs (c.ee 3)) (cs (c.ee 4)) (cs (c.ee 5))) := by
  obtain ⟨-, h1, h2, h3, h4⟩ := C56_frames h
  obtain ⟨g1, g2⟩ := C56_ideal hE s.q
  have hl : ∀ i (hi : i < c.n), linkOf c i (s.q ⟨i, hi⟩) = link (kindOf c i) (fun k => c.dh (4 * i + k)) (s.q ⟨i, hi⟩) := by
    intro i hi
    have ha : angleOf (c.fdh (4 * i + 1)) (c.dh (4 * i + 1)) = cs (c.dh (4 * i + 1)) := angleOf_exact fun h0 => hE _ (.inl ⟨i, hi, h0, rfl⟩)
    unfold linkOf
    rw [ha]
    cases hk : kindOf c i with
    | revolute => rfl
    | prismatic =>
      simp only
      rw [angleOf_exact fun h0 => hE _ (.inr (.inl ⟨i, hi, hk, h0, rfl⟩))]
      rfl
  refine ⟨fun i hi => by rw [← hl i hi]; exact h1 i hi, linkFrame c s.q, h2, g1 0 (Nat.zero_le _), fun i hi => ?_, by rw [← g2]; exact h3, by rw [← g2]; exact h4⟩
  rw [← hl i hi, linkFrame, dif_pos hi]

/-- C02: the frames returned are rigid motions when the numeric angles have a cosine and a sine on the unit circle. -/
theorem C02_get {s : State c} {R : String → Mat → Prop} (h : Source y c s R) (hU : UnitNumeric c) :
    (∀ i < c.n, ∃ T, Returns R ("T_" ++ toString (i + 1)) T ∧ IsRigid T) ∧
    (∀ i ≤ c.n + 1, ∃ T, Returns R ("T_0_" ++ toString i) T ∧ IsRigid T) ∧ ∃ T, Returns R "T_0_ee" T ∧ IsRigid T := by
  obtain ⟨-, h1, h2, h3, h4⟩ := C56_frames h
  obtain ⟨g1, g2⟩ := C56_rigid h hU s.q
  refine ⟨fun i hi => ⟨_, h1 i hi, ?_⟩, fun i hi => ?_, _, h4, g2⟩
  · rw [← val_Ti h.pos h.typed s hi]
    exact (C02_rigid (base_wf h.pos h.typed) (base_unit hU) (env c s)).1 i hi
  · rcases Nat.lt_or_ge c.n i with hi' | hi'
    · obtain rfl : i = c.n + 1 := by omega
      exact ⟨_, h3, g2⟩
    · exact ⟨_, h2 i hi', g1 i hi'⟩

/-- C03, C04: `J_i` is the Jacobian of the frames `T_0_i` returned in all states: its first rows are the partial derivatives of the origin, the others the
angular velocities. -/
theorem C03_get (hc : Tunes y c) (hU : UnitNumeric c) {i : ℕ} (hi : i < c.n) :
    ∃ (T : State c → Matrix (Fin 4) (Fin 4) ℝ) (J : State c → Matrix (Fin 6) (Fin c.n) ℝ),
      Law y c ("T_0_" ++ toString (i + 1)) T ∧ Law y c ("J_" ++ toString (i + 1)) J ∧
      ∀ s : State c, IsLinearJacobian (fun q => T { s with q := q }) s.q (J s) ∧ IsAngularJacobian (fun q => T { s with q := q }) s.q (J s) := by
  obtain ⟨c₀, h0, hj, ht⟩ := hc
  refine ⟨fun s => linkFrame c s.q (i + 1), fun s => jacobianOf (fun q => linkFrame c q (i + 1)) s.q, fun s R h => (C56_frames h).2.2.1 (i + 1) hi,
    fun s R h => (C57_jacobians h hU).1 i hi, fun s => ?_⟩
  obtain ⟨r, hr⟩ := C56_reachable h0 hj ht s
  exact (C57_derivative (.robot hr) hU).1 i hi

/-- C05: `J_ee`, which is also `J_{n+1}`, is the Jacobian of the frames `T_0_ee` returned in all states. -/
theorem C05_get (hc : Tunes y c) (hU : UnitNumeric c) :
    ∃ (T : State c → Matrix (Fin 4) (Fin 4) ℝ) (J : State c → Matrix (Fin 6) (Fin c.n) ℝ),
      Law y c "T_0_ee" T ∧ Law y c "J_ee" J ∧ Law y c ("J_" ++ toString (c.n + 1)) J ∧
      ∀ s : State c, IsLinearJacobian (fun q => T { s with q := q }) s.q (J s) ∧ IsAngularJacobian (fun q => T { s with q := q }) s.q (J s) := by
  obtain ⟨c₀, h0, hj, ht⟩ := hc
  refine ⟨fun s => toolFrame c s.q, fun s => jacobianOf (toolFrame c) s.q, fun s R h => (C56_frames h).2.2.2.2,
    fun s R h => (C57_jacobians h hU).2.2, fun s R h => (C57_jacobians h hU).2.1, fun s => ?_⟩
  obtain ⟨r, hr⟩ := C56_reachable h0 hj ht s
  exact (C57_derivative (.robot hr) hU).2

/-- C06: the Jacobians returned have zero columns for the joints after the frame, and the frame returned is the same in two states that differ only in
these joints (and in anything but the coordinates). -/
theorem C06_get {s : State c} {R : String → Mat → Prop} (h : Source y c s R) {i : ℕ} (hi : i < c.n) :
    (∃ J Jc : Matrix (Fin 6) (Fin c.n) ℝ, Returns R ("J_" ++ toString (i + 1)) J ∧ Returns R ("J_cm_" ++ toString (i + 1)) Jc ∧
      ∀ a (j : Fin c.n), i < j → J a j = 0 ∧ Jc a j = 0) ∧
    ∀ (s' : State c) (R' : String → Mat → Prop), Source y c s' R' → (∀ j : Fin c.n, (j : ℕ) ≤ i → s.q j = s'.q j) →
      ∃ T : Matrix (Fin 4) (Fin 4) ℝ, Returns R ("T_0_" ++ toString (i + 1)) T ∧ Returns R' ("T_0_" ++ toString (i + 1)) T := by
  have hw := base_wf h.pos h.typed
  refine ⟨⟨_, _, h.gives (.J (i + 1)) ⟨by omega, by omega⟩ rfl rfl rfl rfl, h.gives (.Jcm (i + 1)) ⟨by omega, by omega⟩ rfl rfl rfl rfl, ?_⟩, ?_⟩
  · intro a j hj
    exact (C06_causal hw (env c s) hi).1 a j hj
  · intro s' R' h' hq
    refine ⟨_, (C56_frames h).2.2.1 (i + 1) hi, ?_⟩
    have e : linkFrame c s.q (i + 1) = linkFrame c s'.q (i + 1) := by
      exact (frames_q h.pos h.typed s s.q (i := i + 1) hi).symm.trans (((C06_causal hw (env c s) hi).2 s.q s'.q hq).trans (frames_q h.pos h.typed s s'.q (i := i + 1) hi))
    rw [e]
    exact (C56_frames h').2.2.1 (i + 1) hi

/-- C07: `J_ee_dot` and `J_ee_ddot` are the derivatives of `J_ee` along every motion. -/
theorem C07_get (hc : Tunes y c) : ∃ J J₁ J₂ : State c → Matrix (Fin 6) (Fin c.n) ℝ, Law y c "J_ee" J ∧ Law y c "J_ee_dot" J₁ ∧ Law y c "J_ee_ddot" J₂ ∧
    (∀ (s : State c) (q : ℝ → Fin c.n → ℝ) (t : ℝ), q t = s.q → (∀ i, HasDerivAt (fun x => q x i) (s.dq i) t) →
      ∀ a b, HasDerivAt (fun x => J { s with q := q x } a b) (J₁ s a b) t) ∧
    ∀ (s : State c) (q dq : ℝ → Fin c.n → ℝ) (t : ℝ), q t = s.q → dq t = s.dq → (∀ x i, HasDerivAt (fun x => q x i) (dq x i) x) →
      (∀ i, HasDerivAt (fun x => dq x i) (s.ddq i) t) → ∀ a b, HasDerivAt (deriv fun x => J { s with q := q x } a b) (J₂ s a b) t := by
  refine ⟨_, _, _, law_of (f := .Jee) trivial (by decide) rfl rfl, law_of (f := .JeeDot) trivial (by decide) rfl rfl,
    law_of (f := .JeeDdot) trivial (by decide) rfl rfl, fun s q t h0 h1 a b => ?_, fun s q dq t h0 h1 h2 h3 a b => ?_⟩
  · have h : HasDerivAt (fun x => SX.val (setV "q" (env c s) (q x)) (base c).Jee 6 c.n a b)
        (SX.val (setV "q" (setV "dq" (env c s) s.dq) (q t)) (base c).JeeDot 6 c.n a b) t := C07_dot hc.wf (env c s) h1 a b
    simp only [setV_dq, h0, setV_q] at h
    exact h
  · have h : HasDerivAt (deriv fun x => SX.val (setV "q" (env c s) (q x)) (base c).Jee 6 c.n a b)
        (SX.val (setV "q" (setV "dq" (setV "ddq" (env c s) s.ddq) (dq t)) (q t)) (base c).JeeDdot 6 c.n a b) t := C07_ddot hc.wf (env c s) h2 h3 a b
    simp only [setV_ddq, h1, setV_dq, h0, setV_q] at h
    exact h

/-- C08: `J_ee_pinv` solves the damped least-squares problem of the `J_ee` that is returned. -/
theorem C08_get {s : State c} {R : String → Mat → Prop} (h : Source y c s R) :
    ∃ (J : Matrix (Fin 6) (Fin c.n) ℝ) (P : Matrix (Fin c.n) (Fin 6) ℝ), Returns R "J_ee" J ∧ Returns R "J_ee_pinv" P ∧
      IsUnit (J * Jᵀ + (0.02 : ℝ) • (1 : Matrix (Fin 6) (Fin 6) ℝ)).det ∧ ∀ (v : Fin 6 → ℝ) (x : Fin c.n → ℝ), x ≠ P *ᵥ v →
        (J *ᵥ (P *ᵥ v) - v) ⬝ᵥ (J *ᵥ (P *ᵥ v) - v) + 0.02 * ((P *ᵥ v) ⬝ᵥ (P *ᵥ v)) < (J *ᵥ x - v) ⬝ᵥ (J *ᵥ x - v) + 0.02 * (x ⬝ᵥ x) :=
  ⟨_, _, h.gives .Jee trivial (by decide) rfl rfl rfl, h.gives .JeePinv trivial (by decide) rfl rfl rfl, C08_pinv (B := base c) (env c s)⟩

/-- C10, C11: the mass matrix returned is symmetric, and positive semidefinite when the links are physical. -/
theorem C10_get {s : State c} {R : String → Mat → Prop} (h : Source y c s R) : ∃ M : Matrix (Fin c.n) (Fin c.n) ℝ, Returns R "M" M ∧ Mᵀ = M :=
  ⟨_, h.gives .M trivial (by decide) rfl rfl rfl, C10_symm (B := base c) (env c s)⟩

/-- C11: it is positive semidefinite when the links are physical. -/
theorem C11_get {s : State c} {R : String → Mat → Prop} (h : Source y c s R) (hp : Physical c.dyn c.n) :
    ∃ M : Matrix (Fin c.n) (Fin c.n) ℝ, Returns R "M" M ∧ ∀ v, 0 ≤ v ⬝ᵥ M *ᵥ v := by
  refine ⟨_, h.gives .M trivial (by decide) rfl rfl rfl, C11_psd (B := base c) (env c s) ?_⟩
  intro i hi
  have hk : ∀ k < 10 * c.n, (base c).dynV (env c s) k = c.dyn k := fun k hk => dynV_env s hk
  rw [mass_congr hk hi, inertia_congr hk hi]
  exact hp i hi

/-- C13: `C` is the Christoffel matrix of the mass matrices that are returned. -/
theorem C13_get (hc : Tunes y c) : ∃ M C : State c → Matrix (Fin c.n) (Fin c.n) ℝ, Law y c "M" M ∧ Law y c "C" C ∧
    (∀ (s : State c) (h j k : Fin c.n), DifferentiableAt ℝ (fun x => M { s with q := Function.update s.q k x } h j) (s.q k)) ∧
    ∀ s : State c, C s = christoffel (fun q => M { s with q := q }) s.q s.dq := by
  have key : ∀ s : State c,
      (∀ h j k : Fin c.n, DifferentiableAt ℝ (fun x => SX.val (setV "q" (env c s) (Function.update s.q k x)) (base c).M c.n c.n h j) (s.q k)) ∧
      ∀ h j : Fin c.n, SX.val (setV "q" (env c s) s.q) (base c).C c.n c.n h j = 1 / 2 * ∑ k : Fin c.n,
        (deriv (fun x => SX.val (setV "q" (env c s) (Function.update s.q k x)) (base c).M c.n c.n h j) (s.q k) +
         deriv (fun x => SX.val (setV "q" (env c s) (Function.update s.q j x)) (base c).M c.n c.n h k) (s.q j) -
         deriv (fun x => SX.val (setV "q" (env c s) (Function.update s.q h x)) (base c).M c.n c.n j k) (s.q h)) * env c s ⟨"dq", k⟩ :=
    fun s => C13_christoffel hc.wf (env c s) s.q
  refine ⟨_, _, law_of (f := .M) trivial (by decide) rfl rfl, law_of (f := .C) trivial (by decide) rfl rfl, fun s h j k => ?_, fun s => ?_⟩
  · have := (key s).1 h j k
    simp only [setV_q] at this
    exact this
  · ext h j
    have := (key s).2 h j
    simp only [setV_q] at this
    refine this.trans ?_
    unfold christoffel
    rw [Matrix.of_apply]
    congr 1
    exact Finset.sum_congr rfl fun k _ => by rw [env_dqv s k.2]; rfl

/-- C14: `C` and `C_std` are the same matrix. -/
theorem C14_get {s : State c} {R : String → Mat → Prop} (h : Source y c s R) :
    ∃ C : Matrix (Fin c.n) (Fin c.n) ℝ, Returns R "C" C ∧ Returns R "C_std" C :=
  ⟨_, h.gives .C trivial (by decide) rfl rfl rfl, h.gives .Cstd trivial (by decide) rfl rfl (C14_std (base_wf h.pos h.typed) (env c s))⟩

/-- C15: `M_dot - 2 C` is skew-symmetric. -/
theorem C15_get {s : State c} {R : String → Mat → Prop} (h : Source y c s R) :
    ∃ M₁ C : Matrix (Fin c.n) (Fin c.n) ℝ, Returns R "M_dot" M₁ ∧ Returns R "C" C ∧ (M₁ - (2 : ℝ) • C)ᵀ = -(M₁ - (2 : ℝ) • C) ∧
      s.dq ⬝ᵥ (M₁ - (2 : ℝ) • C) *ᵥ s.dq = 0 :=
  ⟨_, _, h.gives .Mdot trivial (by decide) rfl rfl rfl, h.gives .C trivial (by decide) rfl rfl rfl, C15_skew (base_wf h.pos h.typed) (env c s),
    C15_passive (base_wf h.pos h.typed) (env c s) s.dq⟩

/-- C18: `M_dot` … `G_ddot` are the derivatives of `M`, `C` and `G` along every motion. -/
theorem C18_get (hc : Tunes y c) : ∃ (M M₁ M₂ C C₁ C₂ : State c → Matrix (Fin c.n) (Fin c.n) ℝ) (G G₁ G₂ : State c → Fin c.n → ℝ),
    Law y c "M" M ∧ Law y c "M_dot" M₁ ∧ Law y c "M_ddot" M₂ ∧ Law y c "C" C ∧ Law y c "C_dot" C₁ ∧ Law y c "C_ddot" C₂ ∧
    LawVec y c "G" G ∧ LawVec y c "G_dot" G₁ ∧ LawVec y c "G_ddot" G₂ ∧
    (∀ (s : State c) (q dq : ℝ → Fin c.n → ℝ) (t : ℝ), q t = s.q → dq t = s.dq → (∀ i, HasDerivAt (fun x => q x i) (dq t i) t) →
      (∀ i, HasDerivAt (fun x => dq x i) (s.ddq i) t) → ∀ a b,
      HasDerivAt (fun x => M { s with q := q x } a b) (M₁ s a b) t ∧ HasDerivAt (fun x => G { s with q := q x } a) (G₁ s a) t ∧
      HasDerivAt (fun x => C { s with q := q x, dq := dq x } a b) (C₁ s a b) t) ∧
    ∀ (s : State c) (q dq ddq : ℝ → Fin c.n → ℝ) (t : ℝ), q t = s.q → dq t = s.dq → ddq t = s.ddq → (∀ x i, HasDerivAt (fun x => q x i) (dq x i) x) →
      (∀ x i, HasDerivAt (fun x => dq x i) (ddq x i) x) → (∀ i, HasDerivAt (fun x => ddq x i) (s.d3q i) t) → ∀ a b,
      HasDerivAt (deriv fun x => M { s with q := q x } a b) (M₂ s a b) t ∧ HasDerivAt (deriv fun x => G { s with q := q x } a) (G₂ s a) t ∧
      HasDerivAt (deriv fun x => C { s with q := q x, dq := dq x } a b) (C₂ s a b) t := by
  refine ⟨_, _, _, _, _, _, _, _, _, law_of (f := .M) trivial (by decide) rfl rfl, law_of (f := .Mdot) trivial (by decide) rfl rfl,
    law_of (f := .Mddot) trivial (by decide) rfl rfl, law_of (f := .C) trivial (by decide) rfl rfl, law_of (f := .Cdot) trivial (by decide) rfl rfl,
    law_of (f := .Cddot) trivial (by decide) rfl rfl, lawVec_of (f := .G) trivial (by decide) rfl rfl, lawVec_of (f := .Gdot) trivial (by decide) rfl rfl,
    lawVec_of (f := .Gddot) trivial (by decide) rfl rfl, fun s q dq t h0 h1 h2 h3 a b => ?_, fun s q dq ddq t h0 h1 h2 h3 h4 h5 a b => ?_⟩
  · have h : HasDerivAt (fun x => SX.val (setV "q" (env c s) (q x)) (base c).M c.n c.n a b)
          (SX.val (setV "q" (setV "dq" (env c s) (dq t)) (q t)) (base c).Mdot c.n c.n a b) t ∧
        HasDerivAt (fun x => SX.vec (setV "q" (env c s) (q x)) (base c).G c.n a)
          (SX.val (setV "q" (setV "dq" (env c s) (dq t)) (q t)) (base c).Gdot c.n 1 a 0) t ∧
        HasDerivAt (fun x => SX.val (setV "q" (setV "dq" (env c s) (dq x)) (q x)) (base c).C c.n c.n a b)
          (SX.val (setV "q" (setV "dq" (setV "ddq" (env c s) s.ddq) (dq t)) (q t)) (base c).Cdot c.n c.n a b) t :=
      C18_dot hc.wf (env c s) h2 h3 a b
    simp only [setV_ddq, setV_dq, setV_q, h0, h1] at h
    exact h
  · have h : HasDerivAt (deriv fun x => SX.val (setV "q" (env c s) (q x)) (base c).M c.n c.n a b)
          (SX.val (setV "q" (setV "dq" (setV "ddq" (env c s) (ddq t)) (dq t)) (q t)) (base c).Mddot c.n c.n a b) t ∧
        HasDerivAt (deriv fun x => SX.vec (setV "q" (env c s) (q x)) (base c).G c.n a)
          (SX.val (setV "q" (setV "dq" (setV "ddq" (env c s) (ddq t)) (dq t)) (q t)) (base c).Gddot c.n 1 a 0) t ∧
        HasDerivAt (deriv fun x => SX.val (setV "q" (setV "dq" (env c s) (dq x)) (q x)) (base c).C c.n c.n a b)
          (SX.val (setV "q" (setV "dq" (setV "ddq" (setV "d3q" (env c s) s.d3q) (ddq t)) (dq t)) (q t)) (base c).Cddot c.n c.n a b) t :=
      C18_ddot hc.wf (env c s) h3 h4 h5 a b
    simp only [setV_d3q, setV_ddq, setV_dq, setV_q, h0, h1, h2] at h
    exact h

/-- C19: `dl` changes sign with `dq`, vanishes at rest and takes power from the links when no coefficient is negative. -/
theorem C19_get (hd : 0 < c.dlO) : ∃ d : State c → Fin c.n → ℝ, LawVec y c "dl" d ∧ (∀ s, d { s with dq := -s.dq } = -d s) ∧ (∀ s, s.dq = 0 → d s = 0) ∧
    ((∀ k < c.n * c.dlO, 0 ≤ c.dl k) → ∀ s, 0 ≤ s.dq ⬝ᵥ d s) := by
  refine ⟨fun s => frictionOf c c.dl s.dq, fun s R h => (C60_link h hd).1, fun s => ?_, fun s hs => ?_, fun hp s => ?_⟩
  · funext i
    exact friction_neg _ _ _
  · funext i
    show friction _ _ (s.dq i) = 0
    rw [hs]
    exact friction_zero _ _
  · refine Finset.sum_nonneg fun i _ => friction_dissipative (fun k hk => hp _ ?_) _
    exact Base.coef_lt i.2 hk

/-- C20: `k` is odd and monotone in the deflection and is the gradient of the stored energy, which is not negative; `d` and `dm` are odd and take power. -/
theorem C20_get (he : c.elastic = true) (hk : 0 < c.kO) (hd : 0 < c.dO) (hm : 0 < c.dmO) : ∃ k d dm : State c → Fin c.ne → ℝ,
    LawVec y c "k" k ∧ LawVec y c "d" d ∧ LawVec y c "dm" dm ∧
    (∀ s s' : State c, (∀ e, s'.x e - s'.q (Fin.castLE (ne_le_n c) e) = -(s.x e - s.q (Fin.castLE (ne_le_n c) e))) → k s' = -k s) ∧
    ((∀ i < c.ne * c.kO, 0 ≤ c.K i) →
      (∀ (s s' : State c) e, s.x e - s.q (Fin.castLE (ne_le_n c) e) ≤ s'.x e - s'.q (Fin.castLE (ne_le_n c) e) → k s e ≤ k s' e) ∧
      ∀ s : State c, 0 ≤ springEnergyOf c s.q s.x) ∧
    (∀ (s : State c) e, HasDerivAt (fun t => springEnergyOf c s.q (Function.update s.x e t)) (k s e) (s.x e) ∧
      HasDerivAt (fun t => springEnergyOf c (Function.update s.q (Fin.castLE (ne_le_n c) e) t) s.x) (-k s e) (s.q (Fin.castLE (ne_le_n c) e))) ∧
    (∀ s s' : State c, (∀ e, s'.dx e - s'.dq (Fin.castLE (ne_le_n c) e) = -(s.dx e - s.dq (Fin.castLE (ne_le_n c) e))) → d s' = -d s) ∧
    ((∀ i < c.ne * c.dO, 0 ≤ c.D i) → ∀ s : State c, 0 ≤ ∑ e, (s.dx e - s.dq (Fin.castLE (ne_le_n c) e)) * d s e) ∧
    (∀ s : State c, dm { s with dx := -s.dx } = -dm s) ∧
    ((∀ i < c.ne * c.dmO, 0 ≤ c.Dm i) → ∀ s : State c, 0 ≤ s.dx ⬝ᵥ dm s) := by
  refine ⟨fun s => springOf c c.K s.q s.x, fun s => damperOf c c.D s.dq s.dx, fun s => motorFrictionOf c c.Dm s.dx,
    fun s R h => (C60_elastic h he).1 hk, fun s R h => (C60_elastic h he).2.2.1 hd, fun s R h => (C60_elastic h he).2.2.2.2.1 hm,
    fun s s' h => ?_, fun hp => ⟨fun s s' e h => ?_, fun s => ?_⟩, fun s e => ⟨?_, ?_⟩, fun s s' h => ?_, fun hp s => ?_, fun s => ?_, fun hp s => ?_⟩
  · funext e
    show spring _ _ _ = -spring _ _ _
    rw [h e, spring_neg]
  · exact spring_mono (fun k hk => hp _ (Base.coef_lt e.2 hk)) h
  · exact Finset.sum_nonneg fun e _ => springEnergy_nonneg (fun k hk => hp _ (Base.coef_lt e.2 hk)) _
  · have := hasDerivAt_springEnergyOf (c := c) (q := fun _ => s.q) (x := fun t => Function.update s.x e t) (dq := 0) (dx := Pi.single e 1) (t := s.x e)
      (fun i => hasDerivAt_const _ _) (fun i => hasDerivAt_update_at s.x e i)
    rw [Function.update_eq_self] at this
    refine this.congr_deriv ?_
    rw [Finset.sum_eq_single e (fun e' _ he' => by simp [Pi.single_eq_of_ne he']) (fun h => absurd (Finset.mem_univ _) h)]
    simp
  · have := hasDerivAt_springEnergyOf (c := c) (q := fun t => Function.update s.q (Fin.castLE (ne_le_n c) e) t) (x := fun _ => s.x)
      (dq := Pi.single (Fin.castLE (ne_le_n c) e) 1) (dx := 0) (t := s.q (Fin.castLE (ne_le_n c) e))
      (fun i => hasDerivAt_update_at s.q _ i) (fun i => hasDerivAt_const _ _)
    rw [Function.update_eq_self] at this
    refine this.congr_deriv ?_
    rw [Finset.sum_eq_single e (fun e' _ he' => ?_) (fun h => absurd (Finset.mem_univ _) h)]
    · simp
    · rw [Pi.single_eq_of_ne (fun h => he' (Fin.castLE_injective _ h))]
      simp
  · funext e
    show friction _ _ _ = -friction _ _ _
    rw [h e, friction_neg]
  · exact Finset.sum_nonneg fun e _ => friction_dissipative (fun k hk => hp _ (Base.coef_lt e.2 hk)) _
  · funext e
    exact friction_neg _ _ _
  · exact Finset.sum_nonneg fun e _ => friction_dissipative (fun k hk => hp _ (Base.coef_lt e.2 hk)) _

/-- C21: the torques `k` returned act between each motor and its own link exactly when the elastic joints come first; likewise `d`.  Each spring, and each
damper, is supposed to have some coefficient. -/
theorem C21_get (hc : Tunes y c) (he : c.elastic = true) (hk : 0 < c.kO) (hd : 0 < c.dO) : ∃ k d : (Fin c.n → ℝ) → (Fin c.ne → ℝ) → Fin c.ne → ℝ,
    LawVec y c "k" (fun s => k s.q s.x) ∧ LawVec y c "d" (fun s => d s.dq s.dx) ∧
    ((∀ e < c.ne, ∃ i < c.kO, c.K (e * c.kO + i) ≠ 0) → (OwnLink c.types k ↔ elasticJoints c.types = List.range c.ne)) ∧
    ((∀ e < c.ne, ∃ i < c.dO, c.D (e * c.dO + i) ≠ 0) → (OwnLink c.types d ↔ elasticJoints c.types = List.range c.ne)) := by
  refine ⟨springOf c c.K, damperOf c c.D, fun s R h => (C60_elastic h he).1 hk, fun s R h => (C60_elastic h he).2.2.1 hd, ?_⟩
  obtain ⟨c₀, -, hj, h⟩ := hc
  have hn := (h.joints hj).1
  have ht := typed_of (h.joints hj)
  obtain ⟨h1, h2⟩ := C21_iff (base_wf hn ht) (elastic_wf he) (env c (State.zero c))
  have e1 : springMap (base c) c.ne c.kO (env c (State.zero c)) = springOf c c.K := by
    funext (q : Fin c.n → ℝ) x
    show SX.vec (setV "q" (setV "x" (env c (State.zero c)) x) q) ((base c).kFun c.ne c.kO) c.ne = _
    rw [setV_x, setV_q]
    exact env_k hn ht _ he
  have e2 : damperMap (base c) c.ne c.dO (env c (State.zero c)) = damperOf c c.D := by
    funext (q : Fin c.n → ℝ) x
    show SX.vec (setV "dq" (setV "dx" (env c (State.zero c)) x) q) ((base c).dFun c.ne c.dO) c.ne = _
    rw [setV_dx, setV_dq]
    exact env_d hn ht _ he
  rw [e1] at h1
  rw [e2] at h2
  refine ⟨fun hK => h1 fun e hE => ?_, fun hD => h2 fun e hE => ?_⟩
  · obtain ⟨i, hi, hne⟩ := hK e hE
    refine ⟨i, hi, ?_⟩
    have : parV (env c (State.zero c)) (kmod c .K) (e * c.kO + i) = c.K (e * c.kO + i) :=
      parV_env _ (k := .K) rfl he (by rw [size_K he]; exact Base.coef_lt hE hi)
    exact fun h0 => hne (this.symm.trans h0)
  · obtain ⟨i, hi, hne⟩ := hD e hE
    refine ⟨i, hi, ?_⟩
    have : parV (env c (State.zero c)) (kmod c .D) (e * c.dO + i) = c.D (e * c.dO + i) :=
      parV_env _ (k := .D) rfl he (by rw [size_D he]; exact Base.coef_lt hE hi)
    exact fun h0 => hne (this.symm.trans h0)

/-- C22: `Yr` times the linear parameters is `M ddqr + C dqr + G`. -/
theorem C22_get {s : State c} {R : String → Mat → Prop} (h : Source y c s R) (hU : UnitNumeric c) :
    ∃ (Y : Matrix (Fin c.n) (Fin (10 * c.n)) ℝ) (M C : Matrix (Fin c.n) (Fin c.n) ℝ) (G : Fin c.n → ℝ), Returns R "Yr" Y ∧ Returns R "M" M ∧
      Returns R "C" C ∧ ReturnsVec R "G" G ∧ Y *ᵥ (fun k => reg c.dyn k) = M *ᵥ s.ddqr + C *ᵥ s.dqr + G := by
  obtain ⟨Y, _, _, _, hY, -, -, -, -, h1⟩ := C59_inertial h hU
  obtain ⟨hM, hC, -, hG⟩ := C58_matrices h hU
  exact ⟨Y, _, _, _, hY, hM, hC, hG, (h1 c.dyn).2.2.2⟩

omit [Fl] in
theorem same_mounted {s : State c} {fw fg : ℕ → ℤ} {w g : ℕ → ℝ} : Base.SameRobot (env c s) (env (mounted c fw w fg g) (s.mounted fw w fg g)) := by
  rintro ⟨nm, i⟩ h1 h2
  by_cases h : ∃ k : Key, k.sym = nm
  · obtain ⟨k, rfl⟩ := h
    rw [env_key, env_key]
    cases k <;> first | rfl | exact absurd rfl h1 | exact absurd rfl h2
  · unfold env
    rw [dif_neg h, dif_neg h]

/-- C54: the mass and Coriolis matrices returned do not depend on where the robot is mounted; `G` depends on it only through the gravity vector expressed in
the frame of the base. -/
theorem C54_get {y' : Yaml} {fw fg : ℕ → ℤ} {w g : ℕ → ℝ} {s : State c} {R R' : String → Mat → Prop} (h : Source y c s R)
    (h' : Source y' (mounted c fw w fg g) (s.mounted fw w fg g) R') (hU : UnitNumeric c) (hU' : UnitNumeric (mounted c fw w fg g)) :
    ∃ M C : Matrix (Fin c.n) (Fin c.n) ℝ, Returns R "M" M ∧ Returns R' "M" M ∧ Returns R "C" C ∧ Returns R' "C" C ∧
      ((rot (mountOf fw w))ᵀ *ᵥ (fun k => g k) = (rot (mountOf c.fw2l c.w2l))ᵀ *ᵥ (fun k => c.g k) →
        ∃ G : Fin c.n → ℝ, ReturnsVec R "G" G ∧ ReturnsVec R' "G" G) := by
  have hb : base (mounted c fw w fg g) = (base c).remount (kmod (mounted c fw w fg g) .W2L) (kmod (mounted c fw w fg g) .grav) := rfl
  have hB := base_wf h.pos h.typed
  have hB' := base_wf h'.pos h'.typed
  have hu : (base c).BaseUnit := fun k h1 h2 a ha => base_unit hU a (.inr ⟨k, h1, h2, .inl ha⟩)
  have hu' : (base (mounted c fw w fg g)).BaseUnit := fun k h1 h2 a ha => base_unit hU' a (.inr ⟨k, h1, h2, .inl ha⟩)
  obtain ⟨e1, e2⟩ := C54_MC (B := base c) hB (hb ▸ hB') hu (hb ▸ hu') (same_mounted (s := s))
  refine ⟨_, _, h.gives .M trivial (by decide) rfl rfl rfl, h'.gives .M trivial (by decide) rfl rfl e1, h.gives .C trivial (by decide) rfl rfl rfl,
    h'.gives .C trivial (by decide) rfl rfl e2, fun h0 => ⟨_, h.givesVec .G trivial (by decide) rfl rfl rfl, h'.givesVec .G trivial (by decide) rfl rfl ?_⟩⟩
  refine C54_G (B := base c) hB (hb ▸ hB') hu (hb ▸ hu') (same_mounted (s := s)) ?_
  have a1 : SX.val (env c s) ((base c).T0 0) 4 4 = mountOf c.fw2l c.w2l := val_T0 h.pos h.typed s (Nat.zero_le _)
  have a2 : SX.val (env (mounted c fw w fg g) (s.mounted fw w fg g)) ((base (mounted c fw w fg g)).T0 0) 4 4 = mountOf fw w :=
    val_T0 h'.pos h'.typed _ (Nat.zero_le _)
  have b1 : SX.vec (env c s) (base c).g 3 = fun k : Fin 3 => c.g k := funext fun k => eval_par s (k := .grav) rfl trivial k.2
  have b2 : SX.vec (env (mounted c fw w fg g) (s.mounted fw w fg g)) (kmod (mounted c fw w fg g) .grav) 3 = fun k : Fin 3 => g k :=
    funext fun k => eval_par (s.mounted fw w fg g) (k := .grav) rfl trivial k.2
  rw [a1, b1, b2]
  exact (congrArg (fun T => (rot T)ᵀ *ᵥ fun k : Fin 3 => g k) a2).trans h0

end

/-! ## Examples -/

namespace Ex

/-- The file of a revolute joint and an elastic prismatic one, after a change of its symbolic parameters. -/
theorem tunes_arm : Tunes (fileOf arm) armTuned := ⟨arm, describes_arm, joints_arm, retuned_arm⟩

/-- The answers for `k` in all states show that its spring does not act on its own link. -/
example : ∃ k : (Fin armTuned.n → ℝ) → (Fin armTuned.ne → ℝ) → Fin armTuned.ne → ℝ, @LawVec fl (fileOf arm) armTuned "k" _ (fun s => k s.q s.x) ∧
    ¬ OwnLink armTuned.types k := by
  obtain ⟨k, -, hk, -, h1, -⟩ := @C21_get fl _ _ tunes_arm rfl (by decide) (by decide)
  refine ⟨k, hk, fun h => absurd ((h1 fun e he => ⟨1, by decide, ?_⟩).1 h) (by decide)⟩
  show (100 : ℝ) * ((e * 2 + 1 : ℕ) : ℝ) ≠ 0
  positivity

/-- In two states that differ in the second joint, the robot and an object of its class return the same frame of the first link. -/
example : ∃ r g o, @Running fl (fileOf arm) armTuned armState r ∧
    @Generated fl (fileOf arm) armTuned { armState with q := fun i => if (i : ℕ) = 0 then 1 else 7 } g o ∧
    ∃ T : Matrix (Fin 4) (Fin 4) ℝ, Returns (answers r) "T_0_1" T ∧ Returns (classAnswers g o) "T_0_1" T := by
  obtain ⟨r, hr⟩ := running_arm
  obtain ⟨g, e, -⟩ := @C56_start fl _ _ describes_arm joints_arm "arm" (robotName_of_check (f := "M") (by decide +kernel))
  obtain ⟨-, o, -, ho⟩ := @C61_reachable fl _ _ _ describes_arm joints_arm retuned_arm
    { armState with q := fun i => if (i : ℕ) = 0 then 1 else 7 } _ _ e
  refine ⟨r, g, o, hr, ho, (@C06_get fl _ _ _ _ (@Source.robot fl _ _ _ _ hr) 0 (by decide)).2 _ _ (@Source.generated fl _ _ _ _ _ ho) fun j hj => ?_⟩
  obtain hj0 : (j : ℕ) = 0 := by omega
  show ((j : ℕ) : ℝ) + 1 = if (j : ℕ) = 0 then 1 else 7
  rw [if_pos hj0, hj0]
  norm_num

/-- The arm standing on the floor, with gravity along its axis: mass and Coriolis matrices as before. -/
example : ∃ r r', @Running fl (fileOf arm) armTuned armState r ∧
    @Running fl (fileOf (mounted armTuned (fun _ => 1) (fun _ => 0) (fun _ => 0) fun i => if i = 2 then 10 else 0))
      (mounted armTuned (fun _ => 1) (fun _ => 0) (fun _ => 0) fun i => if i = 2 then 10 else 0) (armState.mounted _ _ _ _) r' ∧
    ∃ M C : Matrix (Fin armTuned.n) (Fin armTuned.n) ℝ, Returns (answers r) "M" M ∧ Returns (answers r') "M" M ∧ Returns (answers r) "C" C ∧
      Returns (answers r') "C" C := by
  obtain ⟨r, hr⟩ := running_arm
  obtain ⟨r', hr'⟩ := @C56_reachable fl _ _ _ (describes_fileOf (c := mounted armTuned (fun _ => 1) (fun _ => 0) (fun _ => 0) fun i => if i = 2 then 10 else 0)
    (fun h => nomatch h)) joints_arm (retuned_refl _) (armState.mounted _ _ _ _)
  have hU' : @UnitNumeric fl (mounted armTuned (fun _ => 1) (fun _ => 0) (fun _ => 0) fun i => if i = 2 then 10 else 0) := by
    rintro a (⟨i, h1, h2, rfl⟩ | ⟨i, h1, h2, h3, rfl⟩ | ⟨i, h1, h2, ⟨h3, -⟩ | ⟨h3, rfl⟩⟩)
    · exact unit_arm _ (.inl ⟨i, h1, h2, rfl⟩)
    · exact unit_arm _ (.inr (.inl ⟨i, h1, h2, h3, rfl⟩))
    · exact absurd h3 one_ne_zero
    · exact unit_arm _ (.inr (.inr ⟨i, h1, h2, .inr ⟨h3, rfl⟩⟩))
  obtain ⟨M, C, h1, h2, h3, h4, -⟩ := @C54_get fl _ _ _ _ _ _ _ _ _ _ (@Source.robot fl _ _ _ _ hr) (@Source.robot fl _ _ _ _ hr') unit_arm hU'
  exact ⟨r, r', hr, hr', M, C, h1, h2, h3, h4⟩

end Ex

end

end Thunder
