import Verif.Lemmas.Accuracy
import Verif.Lemmas.Firm
import Verif.Props.Balance
import Verif.Props.Shipped

/-!
# What is returned when the cosines and sines of the numeric angles are rounded: C67

C57 – C59, C63 and C64 suppose that the cosine and the sine computed for each numeric angle lie exactly on the unit circle, which for most angles is not
the case with floating point numbers.  Without this assumption, what is returned differs from the matrices of the exact mechanism by a relative error of
the order of the error of the cosine and the sine, and what depends only on the structure of the equations remains true.
-/

open Matrix

namespace Thunder

noncomputable section

open Spec Robot SX

section

variable [Fl] {y : Yaml} {c : Conf} {s : State c} {R : String → Mat → Prop} {ε : ℝ}

/-! ## The exact mechanism -/

/-- C67: the frames of `exact c` are the ideal Denavit–Hartenberg frames of the numbers in the file. -/
theorem C67_exact (c : Conf) (q : Fin c.n → ℝ) :
    (∀ i ≤ c.n, linkFrame (exact c) q i = fk (frame (fun k => c.w2l k) (cs (c.w2l 3)) (cs (c.w2l 4)) (cs (c.w2l 5))) (kindOf c)
      (fun i k => c.dh (4 * i + k)) (fun i => if hi : i < c.n then q ⟨i, hi⟩ else 0) i) ∧
    toolFrame (exact c) q = linkFrame (exact c) q c.n * frame (fun k => c.ee k) (cs (c.ee 3)) (cs (c.ee 4)) (cs (c.ee 5)) :=
  C56_ideal (c := exact c) (exact_exact c) q

omit [Fl] in
/-- C67: the relative error grows in proportion to the number of factors. -/
theorem C67_gap {u : ℝ} (hu : 0 ≤ u) {k : ℕ} (h : k * u ≤ 1) : gap u k ≤ 2 * (k * u) := gap_le hu h

/-! ## Frames -/

omit [Fl] in
theorem bound_of {x X y Y b : ℝ} (h : |X - Y| ≤ b) (e1 : x = X) (e2 : y = Y) : |x - y| ≤ b := by rw [e1, e2]; exact h

/-- C67: `T_0_i` and `T_0_ee` are close to the frames of the exact mechanism. -/
theorem C67_frames (h : Source y c s R) (hε : 0 ≤ ε) (hc : CloseNumeric c ε) :
    (∀ i ≤ c.n, ∃ T : Matrix (Fin 4) (Fin 4) ℝ, Returns R ("T_0_" ++ toString i) T ∧ (∀ j, T 3 j = if j = 3 then 1 else 0) ∧
      (∀ a b, |rot T a b - rot (linkFrame (exact c) s.q i) a b| ≤ gap (turn ε) (2 * i + 3)) ∧
      ∀ a, |pos T a - pos (linkFrame (exact c) s.q i) a| ≤ gap (turn ε) (2 * i + 3) * ((len fun k => c.w2l k) + reach c s.q i)) ∧
    ∃ T : Matrix (Fin 4) (Fin 4) ℝ, Returns R "T_0_ee" T ∧ (∀ j, T 3 j = if j = 3 then 1 else 0) ∧
      (∀ a b, |rot T a b - rot (toolFrame (exact c) s.q) a b| ≤ gap (turn ε) (2 * c.n + 6)) ∧
      ∀ a, |pos T a - pos (toolFrame (exact c) s.q) a| ≤
        gap (turn ε) (2 * c.n + 3) * ((len fun k => c.ee k) + ((len fun k => c.w2l k) + reach c s.q c.n)) := by
  have hu := turn_nonneg hε
  have hC := close_exact s h.pos h.typed hc
  obtain ⟨-, -, hT, -, hT'⟩ := C56_frames h
  refine ⟨fun i hi => ⟨_, hT i hi, ?_, ?_, ?_⟩, _, hT', ?_, ?_, ?_⟩
  · rw [← val_T0 h.pos h.typed s hi]
    exact (Base.isHom_T0 (B := base c) (env c s) i).bot
  · have e := val_T0 (c := exact c) h.pos h.typed (exactState s) hi
    have := hC.R hu (i := i) hi
    intro a b
    have := this.apply a b
    rw [mul_one] at this
    exact bound_of this (by rw [← val_T0 h.pos h.typed s hi, rot_val]; rfl) (congrFun (congrFun ((congrArg rot e.symm).trans (rot_val _ _)) a) b)
  · have e := val_T0 (c := exact c) h.pos h.typed (exactState s) hi
    have := hC.P hu (i := i) hi
    rw [reach_env h.pos h.typed s hi, mountPos_env] at this
    exact fun a => bound_of (this.apply a) (by rw [← val_T0 h.pos h.typed s hi, pos_val]; rfl) (congrFun ((congrArg pos e.symm).trans (pos_val _ _)) a)
  · rw [← val_T0ee h.pos h.typed s]
    exact (isHom_mtimes (Base.getTransform_isHomOf (base c).ee) (Base.T0_cols (base c) _) (env c s) (Base.isHom_T0 (B := base c) (env c s) c.n)).bot
  · have e := val_T0ee (c := exact c) h.pos h.typed (exactState s)
    have := hC.toolR hu
    intro a b
    have := this.apply a b
    rw [mul_one] at this
    exact bound_of this (by rw [← val_T0ee h.pos h.typed s, rot_val]) (congrFun (congrFun ((congrArg rot e.symm).trans (rot_val _ _)) a) b)
  · have e := val_T0ee (c := exact c) h.pos h.typed (exactState s)
    have := hC.toolP_near hu
    rw [show (base c).n = c.n from rfl, reach_env h.pos h.typed s le_rfl, mountPos_env, toolPos_env] at this
    exact fun a => bound_of (this.apply a) (by rw [← val_T0ee h.pos h.typed s, pos_val]) (congrFun ((congrArg pos e.symm).trans (pos_val _ _)) a)

/-! ## Jacobians -/

theorem lin_Jcm {B : Base} (ρ) (i : ℕ) : Spec.lin (SX.val ρ (B.Jcm i) 6 B.n) = SX.val ρ (B.Jcv i) 3 B.n := by
  ext a j
  have : (B.Jcv i).rows = 3 := rfl
  simp [Spec.lin, Base.Jcm, SX.vcat, this]
theorem ang_Jcm {B : Base} (ρ) (i : ℕ) : Spec.angRows (SX.val ρ (B.Jcm i) 6 B.n) = SX.val ρ (B.Jcw i) 3 B.n := by
  ext a j
  have : (B.Jcv i).rows = 3 := rfl
  simp [Spec.angRows, Base.Jcm, SX.vcat, this]

/-- C67: `J_i`, `J_ee` and `J_cm_i` are close to the Jacobians of the exact mechanism. -/
theorem C67_jacobians (h : Source y c s R) (hε : 0 ≤ ε) (hc : CloseNumeric c ε) :
    (∀ i < c.n, ∃ J : Matrix (Fin 6) (Fin c.n) ℝ, Returns R ("J_" ++ toString (i + 1)) J ∧
      (∀ a j, |lin J a j - lin (jacobianOf (fun q => linkFrame (exact c) q (i + 1)) s.q) a j| ≤
        gap (turn ε) (2 * (2 * c.n + 3)) * (1 + reach c s.q (i + 1))) ∧
      ∀ a j, |angRows J a j - angRows (jacobianOf (fun q => linkFrame (exact c) q (i + 1)) s.q) a j| ≤ gap (turn ε) (2 * c.n + 3)) ∧
    (∃ J : Matrix (Fin 6) (Fin c.n) ℝ, Returns R "J_ee" J ∧
      (∀ a j, |lin J a j - lin (jacobianOf (toolFrame (exact c)) s.q) a j| ≤
        gap (turn ε) (3 * (2 * c.n + 3)) * (1 + reach c s.q c.n + len fun k => c.ee k)) ∧
      ∀ a j, |angRows J a j - angRows (jacobianOf (toolFrame (exact c)) s.q) a j| ≤ gap (turn ε) (2 * c.n + 3)) ∧
    ∀ i < c.n, ∃ J : Matrix (Fin 6) (Fin c.n) ℝ, Returns R ("J_cm_" ++ toString (i + 1)) J ∧
      (∀ a j, |lin J a j - lin (jacobianAt (fun q => linkFrame (exact c) q (i + 1)) (com c.dyn i) s.q) a j| ≤
        gap (turn ε) (2 * (2 * c.n + 3)) * arm c s.q i) ∧
      ∀ a j, |angRows J a j - angRows (jacobianAt (fun q => linkFrame (exact c) q (i + 1)) (com c.dyn i) s.q) a j| ≤ gap (turn ε) (2 * c.n + 3) := by
  have hu := turn_nonneg hε
  have hC := close_exact s h.pos h.typed hc
  have hUx := unit_exact c
  have hang : ∀ i < c.n, ∀ (a : Fin 3) (j : Fin c.n),
      |(base c).ocol (env c s) i j a - (base (exact c)).ocol (env (exact c) (exactState s)) i j a| ≤ gap (turn ε) (2 * c.n + 3) := by
    intro i hi a j
    have := (hC.ocol hu (i := i) hi j).apply a
    rw [mul_one] at this
    exact this
  refine ⟨fun i hi => ⟨_, h.gives (.J (i + 1)) ⟨by omega, by omega⟩ rfl rfl rfl rfl, ?_, ?_⟩, ⟨_, h.gives .Jee trivial (by decide) rfl rfl rfl, ?_, ?_⟩,
    fun i hi => ⟨_, h.gives (.Jcm (i + 1)) ⟨by omega, by omega⟩ rfl rfl rfl rfl, ?_, ?_⟩⟩
  · intro a j
    have e : jacobianOf (fun q => linkFrame (exact c) q (i + 1)) s.q = SX.val (env (exact c) (exactState s)) ((base (exact c)).J i) 6 c.n :=
      (val_J (c := exact c) h.pos h.typed (exactState s) hUx hi).symm
    have e1 : lin (SX.val (env c s) ((base c).J i) 6 c.n) a j = _ :=
      (congrFun (congrFun (lin_J (B := base c) (env c s) i) a) j).trans (Close.val_Jv (B := base c) hi a j)
    have e2 : lin (SX.val (env (exact c) (exactState s)) ((base (exact c)).J i) 6 c.n) a j = _ :=
      (congrFun (congrFun (lin_J (B := base (exact c)) (env (exact c) (exactState s)) i) a) j).trans (Close.val_Jv (B := base (exact c)) hi a j)
    have := (hC.fcol hu (i := i) hi j).apply a
    rw [reach_env h.pos h.typed s (show i + 1 ≤ c.n from hi)] at this
    exact bound_of this e1 ((congrFun (congrFun (congrArg lin e) a) j).trans e2)
  · intro a j
    have e : jacobianOf (fun q => linkFrame (exact c) q (i + 1)) s.q = SX.val (env (exact c) (exactState s)) ((base (exact c)).J i) 6 c.n :=
      (val_J (c := exact c) h.pos h.typed (exactState s) hUx hi).symm
    have e1 : angRows (SX.val (env c s) ((base c).J i) 6 c.n) a j = _ :=
      (congrFun (congrFun (ang_J (B := base c) (env c s) i) a) j).trans (Close.val_Jw (B := base c) a j)
    have e2 : angRows (SX.val (env (exact c) (exactState s)) ((base (exact c)).J i) 6 c.n) a j = _ :=
      (congrFun (congrFun (ang_J (B := base (exact c)) (env (exact c) (exactState s)) i) a) j).trans (Close.val_Jw (B := base (exact c)) a j)
    rw [Base.imod_of_lt (B := base c) hi] at e1
    rw [Base.imod_of_lt (B := base (exact c)) hi] at e2
    exact bound_of (hang i hi a j) e1 ((congrFun (congrFun (congrArg angRows e) a) j).trans e2)
  · intro a j
    have e : jacobianOf (toolFrame (exact c)) s.q = SX.val (env (exact c) (exactState s)) (base (exact c)).Jee 6 c.n :=
      (val_Jee (c := exact c) h.pos h.typed (exactState s) hUx).symm
    have e1 : lin (SX.val (env c s) (base c).Jee 6 c.n) a j = _ :=
      (congrFun (congrFun (lin_J (B := base c) (env c s) c.n) a) j).trans (Close.val_Jvn (B := base c) hC.wf a j)
    have e2 : lin (SX.val (env (exact c) (exactState s)) (base (exact c)).Jee 6 c.n) a j = _ :=
      (congrFun (congrFun (lin_J (B := base (exact c)) (env (exact c) (exactState s)) c.n) a) j).trans (Close.val_Jvn (B := base (exact c)) hC.wf₀ a j)
    have := (hC.toolCol hu j).apply a
    rw [show (base c).n = c.n from rfl, reach_env h.pos h.typed s le_rfl, toolPos_env] at this
    rw [toolPos_env] at e1
    exact bound_of this e1 ((congrFun (congrFun (congrArg lin e) a) j).trans e2)
  · intro a j
    have hn := h.pos
    have e : jacobianOf (toolFrame (exact c)) s.q = SX.val (env (exact c) (exactState s)) (base (exact c)).Jee 6 c.n :=
      (val_Jee (c := exact c) h.pos h.typed (exactState s) hUx).symm
    have e1 : angRows (SX.val (env c s) (base c).Jee 6 c.n) a j = _ :=
      (congrFun (congrFun (ang_J (B := base c) (env c s) c.n) a) j).trans (Close.val_Jw (B := base c) a j)
    have e2 : angRows (SX.val (env (exact c) (exactState s)) (base (exact c)).Jee 6 c.n) a j = _ :=
      (congrFun (congrFun (ang_J (B := base (exact c)) (env (exact c) (exactState s)) c.n) a) j).trans (Close.val_Jw (B := base (exact c)) a j)
    rw [show (base c).imod c.n = c.n - 1 from Base.imod_n (B := base c)] at e1
    rw [show (base (exact c)).imod c.n = c.n - 1 from Base.imod_n (B := base (exact c))] at e2
    exact bound_of (hang (c.n - 1) (by omega) a j) e1 ((congrFun (congrFun (congrArg angRows e) a) j).trans e2)
  · intro a j
    have e : jacobianAt (fun q => linkFrame (exact c) q (i + 1)) (com c.dyn i) s.q =
        SX.val (env (exact c) (exactState s)) ((base (exact c)).Jcm i) 6 c.n := (val_Jcm (c := exact c) h.pos h.typed hUx (exactState s) hi).2.symm
    have e1 : lin (SX.val (env c s) ((base c).Jcm i) 6 c.n) a j = (base c).pcol (env c s) i j a :=
      (congrFun (congrFun (lin_Jcm (B := base c) (env c s) i) a) j).trans (congrFun (Base.col_jv (B := base c) (env c s) i j) a)
    have e2 : lin (SX.val (env (exact c) (exactState s)) ((base (exact c)).Jcm i) 6 c.n) a j =
        (base (exact c)).pcol (env (exact c) (exactState s)) i j a :=
      (congrFun (congrFun (lin_Jcm (B := base (exact c)) (env (exact c) (exactState s)) i) a) j).trans
        (congrFun (Base.col_jv (B := base (exact c)) (env (exact c) (exactState s)) i j) a)
    have := (hC.pcol hu (i := i) hi j).apply a
    rw [arm_env h.pos h.typed s hi] at this
    exact bound_of this e1 ((congrFun (congrFun (congrArg lin e) a) j).trans e2)
  · intro a j
    have e : jacobianAt (fun q => linkFrame (exact c) q (i + 1)) (com c.dyn i) s.q =
        SX.val (env (exact c) (exactState s)) ((base (exact c)).Jcm i) 6 c.n := (val_Jcm (c := exact c) h.pos h.typed hUx (exactState s) hi).2.symm
    have e1 : angRows (SX.val (env c s) ((base c).Jcm i) 6 c.n) a j = (base c).ocol (env c s) i j a :=
      (congrFun (congrFun (ang_Jcm (B := base c) (env c s) i) a) j).trans (congrFun (Base.col_jw (B := base c) (env c s) i j) a)
    have e2 : angRows (SX.val (env (exact c) (exactState s)) ((base (exact c)).Jcm i) 6 c.n) a j =
        (base (exact c)).ocol (env (exact c) (exactState s)) i j a :=
      (congrFun (congrFun (ang_Jcm (B := base (exact c)) (env (exact c) (exactState s)) i) a) j).trans
        (congrFun (Base.col_jw (B := base (exact c)) (env (exact c) (exactState s)) i j) a)
    exact bound_of (hang i hi a j) e1 ((congrFun (congrFun (congrArg angRows e) a) j).trans e2)

/-! ## Dynamics -/

/-- C67: `M`, `C`, `C_std` and `G` are close to the matrices of the exact mechanism, and so are the torques computed from them. -/
theorem C67_dynamics (h : Source y c s R) (hε : 0 ≤ ε) (hc : CloseNumeric c ε) :
    ∃ (M C : Matrix (Fin c.n) (Fin c.n) ℝ) (G : Fin c.n → ℝ), Returns R "M" M ∧ Returns R "C" C ∧ Returns R "C_std" C ∧ ReturnsVec R "G" G ∧
      (∀ a b, |M a b - massOf (exact c) s.q a b| ≤ gap (turn ε) (4 * (2 * c.n + 3)) * massSize c s.q) ∧
      (∀ a b, |C a b - coriolisOf (exact c) s.q s.dq a b| ≤ gap (turn ε) (4 * (2 * c.n + 3)) * (3 / 2 * rateSize c s.q * ∑ i, |s.dq i|)) ∧
      (∀ a, |G a - gravityOf (exact c) s.q a| ≤ gap (turn ε) (2 * (2 * c.n + 3)) * gravitySize c s.q) ∧
      ∀ (v : Fin c.n → ℝ) (a : Fin c.n), |(M *ᵥ v + C *ᵥ s.dq + G) a -
          (massOf (exact c) s.q *ᵥ v + coriolisOf (exact c) s.q s.dq *ᵥ s.dq + gravityOf (exact c) s.q) a| ≤
        gap (turn ε) (4 * (2 * c.n + 3)) * (massSize c s.q * ∑ i, |v i| + 3 / 2 * rateSize c s.q * (∑ i, |s.dq i|) ^ 2 + gravitySize c s.q) := by
  have hu := turn_nonneg hε
  have hC := close_exact s h.pos h.typed hc
  have hUx := unit_exact c
  have hM : ∀ a b : Fin c.n, |SX.val (env c s) (base c).M c.n c.n a b - massOf (exact c) s.q a b| ≤ gap (turn ε) (4 * (2 * c.n + 3)) * massSize c s.q := by
    intro a b
    have := (hC.M hu a b).diff
    rw [← massSize_env h.pos h.typed s, show massOf (exact c) s.q = SX.val (env (exact c) (exactState s)) (base (exact c)).M c.n c.n from
      (val_M (c := exact c) h.pos h.typed hUx (exactState s)).symm]
    exact this
  have hCo : ∀ a b : Fin c.n, |SX.val (env c s) (base c).C c.n c.n a b - coriolisOf (exact c) s.q s.dq a b| ≤
      gap (turn ε) (4 * (2 * c.n + 3)) * (3 / 2 * rateSize c s.q * ∑ i, |s.dq i|) := by
    intro a b
    have hdq : ∀ k : Fin c.n, env c s ⟨"dq", k⟩ = s.dq k := by
      intro k
      have := env_key s .dq k
      simp only [Spec.State.at, dif_pos k.2] at this
      exact this
    have hdq' : ∀ k : Fin c.n, env (exact c) (exactState s) ⟨"dq", k⟩ = env c s ⟨"dq", k⟩ := by
      intro k
      have := env_key (exactState s) .dq k
      have hk : (k : ℕ) < (exact c).n := k.2
      simp only [Spec.State.at, dif_pos hk] at this
      rw [hdq]
      exact this
    have := (hC.C hu hdq' a b).diff
    have hsum : ∑ i : Fin (base c).n, |env c s ⟨"dq", i⟩| = ∑ i, |s.dq i| := Finset.sum_congr rfl fun i _ => congrArg _ (hdq i)
    rw [rateSize_env h.pos h.typed s, hsum] at this
    rw [show coriolisOf (exact c) s.q s.dq = SX.val (env (exact c) (exactState s)) (base (exact c)).C c.n c.n from
      (val_C (c := exact c) h.pos h.typed hUx (exactState s)).symm]
    exact this
  have hG : ∀ a : Fin c.n, |SX.vec (env c s) (base c).G c.n a - gravityOf (exact c) s.q a| ≤ gap (turn ε) (2 * (2 * c.n + 3)) * gravitySize c s.q := by
    intro a
    have := (hC.G hu a).diff
    rw [← gravitySize_env h.pos h.typed s, show gravityOf (exact c) s.q = SX.vec (env (exact c) (exactState s)) (base (exact c)).G c.n from
      (vec_G (c := exact c) h.pos h.typed hUx (exactState s)).symm]
    exact this
  refine ⟨SX.val (env c s) (base c).M c.n c.n, SX.val (env c s) (base c).C c.n c.n, SX.vec (env c s) (base c).G c.n,
    h.gives .M trivial (by decide) rfl rfl rfl, h.gives .C trivial (by decide) rfl rfl rfl,
    h.gives .Cstd trivial (by decide) rfl rfl (C14_std (base_wf h.pos h.typed) (env c s)), h.givesVec .G trivial (by decide) rfl rfl rfl, hM, hCo, hG,
    fun v a => ?_⟩
  have hg0 := gap_nonneg hu (4 * (2 * c.n + 3))
  have hs0 : 0 ≤ gravitySize c s.q := by
    rw [← gravitySize_env h.pos h.typed s]
    exact (hC.G hu ⟨0, h.pos⟩).nonneg
  have key : ∀ {A A₀ : Matrix (Fin c.n) (Fin c.n) ℝ} {b : ℝ} (v : Fin c.n → ℝ), (∀ i j, |A i j - A₀ i j| ≤ b) → |(A *ᵥ v) a - (A₀ *ᵥ v) a| ≤ b * ∑ i, |v i| := by
    intro A A₀ b v hb
    rw [← Pi.sub_apply, ← Matrix.sub_mulVec, mulVec, dotProduct, Finset.mul_sum]
    refine (Finset.abs_sum_le_sum_abs _ _).trans (Finset.sum_le_sum fun j _ => ?_)
    rw [abs_mul]
    exact mul_le_mul_of_nonneg_right (hb a j) (abs_nonneg _)
  have h1 := key v hM
  have h2 := key s.dq hCo
  have h3 := (hG a).trans (mul_le_mul_of_nonneg_right (gap_mono hu (show 2 * (2 * c.n + 3) ≤ 4 * (2 * c.n + 3) by omega)) hs0)
  simp only [Pi.add_apply]
  have e : ∀ x y z x' y' z' : ℝ, x + y + z - (x' + y' + z') = (x - x') + (y - y') + (z - z') := fun _ _ _ _ _ _ => by ring
  refine (le_of_eq (congrArg _ (e _ _ _ _ _ _))).trans ((abs_add_three _ _ _).trans ((add_le_add (add_le_add h1 h2) h3).trans (le_of_eq ?_)))
  ring

/-! ## Structure of the equations -/

/-- C67: whatever the cosines and sines, `M` depends only on the position, `C` and `C_std` are the matrix of its Christoffel symbols and `M_dot` its
rate; `M` is symmetric, and positive semidefinite when the links are physical. -/
theorem C67_structure (h : Source y c s R) : ∃ A : (Fin c.n → ℝ) → Matrix (Fin c.n) (Fin c.n) ℝ,
    (∀ (s' : State c) (R' : String → Mat → Prop), Source y c s' R' → Returns R' "M" (A s'.q) ∧ Returns R' "C" (christoffel A s'.q s'.dq) ∧
      Returns R' "C_std" (christoffel A s'.q s'.dq) ∧ ∃ A₁, Returns R' "M_dot" A₁ ∧ ∀ (q : ℝ → Fin c.n → ℝ) (t : ℝ), q t = s'.q →
        (∀ i, HasDerivAt (fun x => q x i) (s'.dq i) t) → ∀ a b, HasDerivAt (fun x => A (q x) a b) (A₁ a b) t) ∧
    (∀ q, (A q)ᵀ = A q) ∧ (∀ q a b k, DifferentiableAt ℝ (fun x => A (Function.update q k x) a b) (q k)) ∧
    (Physical c.dyn c.n → ∀ q v, 0 ≤ v ⬝ᵥ A q *ᵥ v) := by
  refine ⟨massAt c, fun s' R' h' => ⟨?_, ?_, ?_, _, h'.gives .Mdot trivial (by decide) rfl rfl rfl, ?_⟩, fun q => C10_symm (B := base c) _,
    fun q a b k => diff_massAt h.pos h.typed q a b k, fun hp q v => C11_psd (B := base c) _ (physical_env _ hp) v⟩
  · exact h'.gives .M trivial (by decide) rfl rfl (val_massAt h.pos h.typed s')
  · exact h'.gives .C trivial (by decide) rfl rfl (val_C_massAt h.pos h.typed s')
  · exact h'.gives .Cstd trivial (by decide) rfl rfl ((C14_std (base_wf h.pos h.typed) (env c s')).trans (val_C_massAt h.pos h.typed s'))
  · exact fun q t h0 hq a b => massAt_dot h.pos h.typed s' h0 hq a b

/-- C67: whatever the cosines and sines, the power of `M ddq + C dq` is the rate of the energy `1/2 dqᵀ M dq`. -/
theorem C67_power (h : Source y c s R) : ∃ (A : (Fin c.n → ℝ) → Matrix (Fin c.n) (Fin c.n) ℝ) (C : Matrix (Fin c.n) (Fin c.n) ℝ),
    (∀ (s' : State c) (R' : String → Mat → Prop), Source y c s' R' → Returns R' "M" (A s'.q)) ∧ Returns R "C" C ∧
    ∀ (q dq : ℝ → Fin c.n → ℝ) (t : ℝ), q t = s.q → dq t = s.dq → (∀ i, HasDerivAt (fun x => q x i) (s.dq i) t) →
      (∀ i, HasDerivAt (fun x => dq x i) (s.ddq i) t) →
      HasDerivAt (fun x => 1 / 2 * (dq x ⬝ᵥ A (q x) *ᵥ dq x)) (s.dq ⬝ᵥ (A s.q *ᵥ s.ddq + C *ᵥ s.dq)) t := by
  refine ⟨massAt c, SX.val (env c s) (base c).C c.n c.n, fun s' R' h' => h'.gives .M trivial (by decide) rfl rfl (val_massAt h.pos h.typed s'),
    h.gives .C trivial (by decide) rfl rfl rfl, fun q dq t h0 h1 hq hdq => ?_⟩
  have hS : ∀ x, (massAt c x)ᵀ = massAt c x := fun x => C10_symm (B := base c) _
  have h2 := hasDerivAt_quad (fun a b => massAt_dot h.pos h.typed s h0 hq a b) hdq (hS _)
  have hp : s.dq ⬝ᵥ (SX.val (env c s) (base c).Mdot c.n c.n - (2 : ℝ) • SX.val (env c s) (base c).C c.n c.n) *ᵥ s.dq = 0 :=
    C15_passive (B := base c) (base_wf h.pos h.typed) (env c s) s.dq
  rw [Matrix.sub_mulVec, Matrix.smul_mulVec, dotProduct_sub, dotProduct_smul, smul_eq_mul] at hp
  have hs : s.ddq ⬝ᵥ massAt c s.q *ᵥ s.dq = s.dq ⬝ᵥ massAt c s.q *ᵥ s.ddq := by
    rw [Matrix.dotProduct_mulVec, dotProduct_comm, ← Matrix.mulVec_transpose, hS]
  refine h2.congr_deriv ?_
  rw [h0, h1, dotProduct_add, hs]
  linarith

omit [Fl] in
theorem forward_of_det {n : ℕ} {M : Matrix (Fin n) (Fin n) ℝ} (hdet : M.det ≠ 0) (x G τ : Fin n → ℝ) : ∃! a, M *ᵥ a + x + G = τ := by
  have hun := isUnit_iff_ne_zero.2 hdet
  refine ⟨M⁻¹ *ᵥ (τ - x - G), ?_, fun a ha => ?_⟩
  · show M *ᵥ (M⁻¹ *ᵥ _) + _ + _ = τ
    rw [mulVec_mulVec, mul_nonsing_inv _ hun, one_mulVec]
    abel
  · have ha' : M *ᵥ a + x + G = τ := ha
    rw [← ha', show M *ᵥ a + x + G - x - G = M *ᵥ a by abel, mulVec_mulVec, nonsing_inv_mul _ hun, one_mulVec]

/-- C67: `M` is positive definite, and the equations of motion have exactly one solution, when the inertia of every link at its own joint exceeds the
error. -/
theorem C67_posdef (h : Source y c s R) (hε : 0 ≤ ε) (hc : CloseNumeric c ε) (hp : Physical c.dyn c.n)
    (ho : ∀ i < c.n, gap (turn ε) (4 * (2 * c.n + 3)) * ownSize c i < ownInertia c.dyn i (kindOf c i)) :
    ∃ (M C : Matrix (Fin c.n) (Fin c.n) ℝ) (G : Fin c.n → ℝ), Returns R "M" M ∧ Returns R "C" C ∧ ReturnsVec R "G" G ∧
      Mᵀ = M ∧ (∀ v, v ≠ 0 → 0 < v ⬝ᵥ M *ᵥ v) ∧ ∀ τ, ∃! a, M *ᵥ a + C *ᵥ s.dq + G = τ := by
  have hu := turn_nonneg hε
  have hC := close_exact s h.pos h.typed hc
  have hpos : ∀ v : Fin c.n → ℝ, v ≠ 0 → 0 < v ⬝ᵥ SX.val (env c s) (base c).M c.n c.n *ᵥ v := fun v hv =>
    hC.posdef hu (base_unit (unit_exact c)) (physical_env s hp) (fun i hi => by
      rw [mass_env s hi, com_env s hi, inertia_env s hi]
      exact (ho i hi).trans_eq (own_env (c := exact c) (exactState s) hi).symm) hv
  have hdet : (SX.val (env c s) (base c).M c.n c.n).det ≠ 0 := by
    intro h0
    obtain ⟨v, hv, e⟩ := Matrix.exists_mulVec_eq_zero_iff.2 h0
    have := hpos v hv
    rw [e, dotProduct_zero] at this
    exact lt_irrefl _ this
  refine ⟨SX.val (env c s) (base c).M c.n c.n, SX.val (env c s) (base c).C c.n c.n, SX.vec (env c s) (base c).G c.n,
    h.gives .M trivial (by decide) rfl rfl rfl, h.gives .C trivial (by decide) rfl rfl rfl, h.givesVec .G trivial (by decide) rfl rfl rfl,
    C10_symm (B := base c) _, hpos, fun τ => forward_of_det hdet _ _ τ⟩

/-! ## The robots of the repository -/

/-- C67: for the robots of the repository it is enough that the cosines and sines are computed with an error of at most `1e-15`. -/
theorem C67_fleet : ∀ p ∈ fleet, CloseNumeric p.2.2 1e-15 → ∀ (s : State p.2.2) (R : String → Mat → Prop), Source p.2.1 p.2.2 s R →
    ∃ (M C : Matrix (Fin p.2.2.n) (Fin p.2.2.n) ℝ) (G : Fin p.2.2.n → ℝ), Returns R "M" M ∧ Returns R "C" C ∧ ReturnsVec R "G" G ∧
      Mᵀ = M ∧ (∀ v, v ≠ 0 → 0 < v ⬝ᵥ M *ᵥ v) ∧ ∀ τ, ∃! a, M *ᵥ a + C *ᵥ s.dq + G = τ := by
  intro p hp hc s R hR
  obtain ⟨h1, h2⟩ := firm_fleet p hp
  refine C67_posdef hR (by norm_num) hc (C65_sound p hp).physical fun i hi => (mul_le_mul_of_nonneg_right ?_ (ownSize_nonneg _ _)).trans_lt (h2 i hi)
  have hn : (p.2.2.n : ℝ) ≤ 9 := by exact_mod_cast h1
  refine (gap_le (by norm_num [turn]) ?_).trans ?_ <;> push_cast <;> norm_num [turn] <;> linarith

end

namespace Ex

open Spec Robot

/-- Library functions whose results all are too small by one unit in the last place. -/
@[instance_reducible] def trim : Fl := ⟨fun a => (1 - 2⁻¹ ^ 53) * Real.cos a, fun a => (1 - 2⁻¹ ^ 53) * Real.sin a⟩

theorem close_trim (c : Conf) : @CloseNumeric trim c (2⁻¹ ^ 53) := by
  intro a _
  show |(1 - 2⁻¹ ^ 53) * Real.cos a - Real.cos a| ≤ 2⁻¹ ^ 53 ∧ |(1 - 2⁻¹ ^ 53) * Real.sin a - Real.sin a| ≤ 2⁻¹ ^ 53
  have h0 : (0 : ℝ) ≤ 2⁻¹ ^ 53 := by norm_num
  refine ⟨?_, ?_⟩
  · rw [show (1 - 2⁻¹ ^ 53) * Real.cos a - Real.cos a = -(2⁻¹ ^ 53 * Real.cos a) by ring, abs_neg, abs_mul, abs_of_nonneg h0]
    exact mul_le_of_le_one_right h0 (Real.abs_cos_le_one a)
  · rw [show (1 - 2⁻¹ ^ 53) * Real.sin a - Real.sin a = -(2⁻¹ ^ 53 * Real.sin a) by ring, abs_neg, abs_mul, abs_of_nonneg h0]
    exact mul_le_of_le_one_right h0 (Real.abs_sin_le_one a)

theorem not_unit_trim {c : Conf} (h : NumericAngle c 0) : ¬ @UnitNumeric trim c := by
  intro hU
  have := hU 0 h
  have e1 : trim.cosF 0 = 1 - 2⁻¹ ^ 53 := by show (1 - 2⁻¹ ^ 53) * Real.cos 0 = _; rw [Real.cos_zero, mul_one]
  have e2 : trim.sinF 0 = 0 := by show (1 - 2⁻¹ ^ 53) * Real.sin 0 = _; rw [Real.sin_zero, mul_zero]
  rw [e1, e2] at this
  unfold snap at this
  norm_num [abs_of_nonneg] at this

/-- The hypotheses of C67 are met by an arm for which those of C57 are not. -/
example : ∃ r, @Running trim (fileOf arm) armTuned armState r ∧ @CloseNumeric trim armTuned (2⁻¹ ^ 53) ∧ ¬ @UnitNumeric trim armTuned ∧
    gap (turn (2⁻¹ ^ 53)) (4 * (2 * armTuned.n + 3)) ≤ 1e-12 := by
  obtain ⟨r, hr⟩ := @C56_reachable trim _ _ _ describes_arm joints_arm retuned_arm armState
  refine ⟨r, hr, close_trim _, not_unit_trim (.inr (.inr ⟨3, le_rfl, by decide, .inr ⟨rfl, rfl⟩⟩)), ?_⟩
  rw [show armTuned.n = 2 from rfl]
  refine (gap_le (by norm_num [turn]) ?_).trans ?_ <;> norm_num [turn]

/-- A robot of the repository with other than right angles. -/
example : ("richard", Thunder.Ship.richard, Ship.richardC) ∈ fleet ∧ @CloseNumeric trim Ship.richardC 1e-15 ∧ ¬ @UnitNumeric trim Ship.richardC ∧
    ∀ s, ∃ r, @Running trim Thunder.Ship.richard Ship.richardC s r := by
  refine ⟨by simp [fleet], fun a ha => ⟨((close_trim _) a ha).1.trans (by norm_num), ((close_trim _) a ha).2.trans (by norm_num)⟩,
    not_unit_trim (.inr (.inr ⟨3, le_rfl, by decide, .inr ⟨rfl, rfl⟩⟩)), fun s => ?_⟩
  exact @C56_reachable trim _ _ _ sound_richard.describes sound_richard.joints (retuned_refl _) s

/-- Motions through a given position with given velocities and accelerations exist. -/
example (s : Spec.State armTuned) : ∃ (q dq : ℝ → Fin armTuned.n → ℝ), q 0 = s.q ∧ dq 0 = s.dq ∧ (∀ i, HasDerivAt (fun x => q x i) (s.dq i) 0) ∧
    ∀ i, HasDerivAt (fun x => dq x i) (s.ddq i) 0 := by
  refine ⟨fun x i => s.q i + x * s.dq i, fun x i => s.dq i + x * s.ddq i, by funext i; simp, by funext i; simp, fun i => ?_, fun i => ?_⟩
  · simpa using ((hasDerivAt_id (0 : ℝ)).mul_const (s.dq i)).const_add (s.q i)
  · simpa using ((hasDerivAt_id (0 : ℝ)).mul_const (s.ddq i)).const_add (s.dq i)

end Ex

end

end Thunder
