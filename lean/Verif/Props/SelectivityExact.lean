import Verif.Spec.Selectivity
import Verif.Props.Selectivity
import Verif.Props.System
import Verif.Props.FileOf
import Verif.Lemmas.AsRead

/-!
# Symbolic selectivity: the exact condition for C34
-/

open scoped Classical
open Matrix

namespace Thunder

open Spec Act Robot

noncomputable section

/-! ## Transformations that can be undone -/

/-- A matrix with a left inverse. -/
def Undone (T : Matrix (Fin 4) (Fin 4) ℝ) : Prop := ∃ S, S * T = 1

theorem Undone.mul {A B : Matrix (Fin 4) (Fin 4) ℝ} : Undone A → Undone B → Undone (A * B) := by
  rintro ⟨S, hS⟩ ⟨S', hS'⟩
  exact ⟨S' * S, by rw [Matrix.mul_assoc, ← Matrix.mul_assoc S, hS, Matrix.one_mul, hS']⟩

theorem Undone.cancel {T A B : Matrix (Fin 4) (Fin 4) ℝ} (h : Undone T) (e : T * A = T * B) : A = B := by
  obtain ⟨S, hS⟩ := h
  have := congrArg (S * ·) e
  simpa only [← Matrix.mul_assoc, hS, Matrix.one_mul] using this

theorem undone_trans (x y z : ℝ) : Undone (Spec.trans x y z) := by
  refine ⟨Spec.trans (-x) (-y) (-z), ?_⟩
  ext i j
  fin_cases i <;> fin_cases j <;> simp [Spec.trans, Matrix.mul_apply, Fin.sum_univ_four]

theorem undone_rotX (t : ℝ) : Undone (Spec.rotX (cs t)) := by
  refine ⟨Spec.rotX (Real.cos t, -Real.sin t), ?_⟩
  ext i j
  fin_cases i <;> fin_cases j <;> simp [Spec.rotX, cs, Matrix.mul_apply, Fin.sum_univ_four] <;> nlinarith [Real.sin_sq_add_cos_sq t]

theorem undone_rotY (t : ℝ) : Undone (Spec.rotY (cs t)) := by
  refine ⟨Spec.rotY (Real.cos t, -Real.sin t), ?_⟩
  ext i j
  fin_cases i <;> fin_cases j <;> simp [Spec.rotY, cs, Matrix.mul_apply, Fin.sum_univ_four] <;> nlinarith [Real.sin_sq_add_cos_sq t]

theorem undone_rotZ (t : ℝ) : Undone (Spec.rotZ (cs t)) := by
  refine ⟨Spec.rotZ (Real.cos t, -Real.sin t), ?_⟩
  ext i j
  fin_cases i <;> fin_cases j <;> simp [Spec.rotZ, cs, Matrix.mul_apply, Fin.sum_univ_four] <;> nlinarith [Real.sin_sq_add_cos_sq t]

theorem Undone.cancel_right {T A B : Matrix (Fin 4) (Fin 4) ℝ} (h : Undone T) (e : A * T = B * T) : A = B := by
  obtain ⟨S, hS⟩ := h
  have := congrArg (· * S) e
  simpa only [Matrix.mul_assoc, mul_eq_one_comm.1 hS, Matrix.mul_one] using this

theorem rotX_inj {s t : ℝ × ℝ} (h : Spec.rotX s = Spec.rotX t) : s = t :=
  Prod.ext (congrFun (congrFun h 1) 1) (congrFun (congrFun h 2) 1)
theorem rotY_inj {s t : ℝ × ℝ} (h : Spec.rotY s = Spec.rotY t) : s = t :=
  Prod.ext (congrFun (congrFun h 0) 0) (congrFun (congrFun h 0) 2)
theorem rotZ_inj {s t : ℝ × ℝ} (h : Spec.rotZ s = Spec.rotZ t) : s = t :=
  Prod.ext (congrFun (congrFun h 0) 0) (congrFun (congrFun h 1) 0)

/-- One of the three angles of a frame is determined by the frame when the others are exact. -/
theorem frame_inj (p : Fin 3 → ℝ) (a b d : ℝ) (t : ℝ × ℝ) :
    (frame p (cs a) (cs b) (cs d) = frame p t (cs b) (cs d) → cs a = t) ∧ (frame p (cs a) (cs b) (cs d) = frame p (cs a) t (cs d) → cs b = t) ∧
    (frame p (cs a) (cs b) (cs d) = frame p (cs a) (cs b) t → cs d = t) := by
  unfold frame
  refine ⟨fun h => ?_, fun h => ?_, fun h => ?_⟩
  · exact rotZ_inj ((undone_trans _ _ _).cancel ((undone_rotY b).cancel_right ((undone_rotX d).cancel_right h)))
  · exact rotY_inj (((undone_trans _ _ _).mul (undone_rotZ a)).cancel ((undone_rotX d).cancel_right h))
  · exact rotX_inj ((((undone_trans _ _ _).mul (undone_rotZ a)).mul (undone_rotY b)).cancel h)

/-- The twist and, for an exact twist, the angle are determined by the transformation of a link. -/
theorem dh_inj (a d θ α : ℝ) (t : ℝ × ℝ) :
    (dh a (cs α) d (cs θ) = dh a t d (cs θ) → cs α = t) ∧ (dh a (cs α) d (cs θ) = dh a (cs α) d t → cs θ = t) := by
  unfold dh
  refine ⟨fun h => ?_, fun h => ?_⟩
  · exact rotX_inj ((undone_trans _ _ _).cancel ((undone_trans _ _ _).cancel_right ((undone_rotZ θ).cancel_right h)))
  · exact rotZ_inj ((((undone_trans _ _ _).mul (undone_rotX α)).mul (undone_trans _ _ _)).cancel h)

/-! ## The condition -/

variable [Fl]

/-- The mechanism with another choice of symbolic angles. -/
def marked (c : Conf) (fd fw fe : ℕ → ℤ) : Conf := { c with fdh := fd, fw2l := fw, fee := fe }

/-- Everything symbolic except entry `k`. -/
def except (k : ℕ) : ℕ → ℤ := fun j => if j = k then 0 else 1

omit [Fl] in
theorem sameValues_marked (c : Conf) (fd fw fe : ℕ → ℤ) : SameValues c (marked c fd fw fe) :=
  ⟨rfl, rfl, rfl, rfl, rfl, rfl, rfl, rfl, rfl, rfl, rfl, rfl, rfl, rfl, rfl, rfl⟩

theorem undone_mount (v : ℕ → ℝ) : Undone (mountOf (fun _ => 1) v) := by
  simp only [mountOf, angleOf, one_ne_zero, if_false]
  exact (((undone_trans _ _ _).mul (undone_rotZ _)).mul (undone_rotY _)).mul (undone_rotX _)

theorem undone_link (c : Conf) (fw fe : ℕ → ℤ) (i : ℕ) (q : ℝ) : Undone (linkOf (marked c (fun _ => 1) fw fe) i q) := by
  unfold linkOf
  split <;> simp only [marked, angleOf, one_ne_zero, if_false] <;>
    exact (((undone_trans _ _ _).mul (undone_rotX _)).mul (undone_trans _ _ _)).mul (undone_rotZ _)

theorem undone_frame (c : Conf) (fe : ℕ → ℤ) (q : Fin c.n → ℝ) (i : ℕ) : Undone (linkFrame (marked c (fun _ => 1) (fun _ => 1) fe) q i) := by
  induction i with
  | zero => exact undone_mount _
  | succ i ih =>
    refine ih.mul ?_
    split
    · exact undone_link c _ fe i _
    · exact ⟨1, Matrix.one_mul _⟩

theorem frame_marked (c : Conf) (fd fw fe fe' : ℕ → ℤ) (q : Fin c.n → ℝ) (i : ℕ) : linkFrame (marked c fd fw fe) q i = linkFrame (marked c fd fw fe') q i := by
  induction i with
  | zero => rfl
  | succ i ih => exact congrArg (· * _) ih

theorem exact_of_pair {a : ℝ} (h : cs a = angleOf 0 a) : ExactAngle a := by
  simp only [angleOf, if_true] at h
  exact ⟨(congrArg Prod.fst h).symm, (congrArg Prod.snd h).symm⟩

/-- C34, exactly.  For given values of the parameters, all choices of what is symbolic lead to robots that no history of evaluations and changes of the
variables can tell apart if and only if the library functions with rounding of small values are exact on every angle of the file. -/
theorem C34_iff {y : Yaml} {c : Conf} (h : Describes y c) (hj : JointsOk c) :
    (∀ (y₁ y₂ : Yaml) (c₁ c₂ : Conf), Describes y₁ c₁ → Describes y₂ c₂ → SameValues c c₁ → SameValues c c₂ →
      ∀ (n₁ n₂ : String) (r₁ r₂ : Robot), robotFromFile n₁ (some y₁) true = .ok r₁ → robotFromFile n₂ (some y₂) true = .ok r₂ →
        ∀ hist : List RCall, (∀ x ∈ hist, Motion x) → trace hist r₁ = trace hist r₂) ↔
    ∀ a, FileAngle c a → ExactAngle a := by
  constructor
  · intro hall
    have hel : c.elastic = false → c.kO = 0 ∧ c.dO = 0 ∧ c.dmO = 0 := by
      intro he
      rcases h.ela with ⟨-, -, h1⟩ | ⟨h1, -⟩
      · exact h1
      · rw [h1] at he; cases he
    have hnm : RobotName "robot" := robotName_of_check (f := "M") (by decide +kernel)
    -- what the two robots answer at the start
    have same : ∀ (fd fw fe fd' fw' fe' : ℕ → ℤ),
        (∀ i, i < c.n → linkOf (marked c fd fw fe) i 0 = linkOf (marked c fd' fw' fe') i 0) ∧
        mountOf fw c.w2l = mountOf fw' c.w2l ∧ toolFrame (marked c fd fw fe) 0 = toolFrame (marked c fd' fw' fe') 0 := by
      intro fd fw fe fd' fw' fe'
      have d₁ := Ex.describes_fileOf (c := marked c fd fw fe) hel
      have d₂ := Ex.describes_fileOf (c := marked c fd' fw' fe') hel
      obtain ⟨r₁, e₁, run₁⟩ := C56_start d₁ (show JointsOk (marked c fd fw fe) from hj) hnm
      obtain ⟨r₂, e₂, run₂⟩ := C56_start d₂ (show JointsOk (marked c fd' fw' fe') from hj) hnm
      have tr : ∀ f, f ∉ parRegressors → ∀ {m k : ℕ} {A B : Matrix (Fin m) (Fin k) ℝ}, Returns (answers r₁) f A → Returns (answers r₂) f B → A = B := by
        intro f hf m k A B hA hB
        refine returns_inj hA hB answers_unique answers_unique ?_
        have ht := hall _ _ _ _ d₁ d₂ (sameValues_marked c _ _ _) (sameValues_marked c _ _ _) _ _ _ _ e₁ e₂ [.get f]
          (fun x hx => by rw [List.mem_singleton.1 hx]; exact hf)
        obtain ⟨m₁, ⟨s₁, g₁⟩, -⟩ := hA
        obtain ⟨m₂, ⟨s₂, g₂⟩, -⟩ := hB
        have k₁ : (RCall.get f).run r₁ = .ok (.mat m₁) s₁ := Act.bind_ok g₁
        have k₂ : (RCall.get f).run r₂ = .ok (.mat m₂) s₂ := Act.bind_ok g₂
        simp only [Spec.trace, k₁, k₂] at ht
        refine ⟨m₁, ⟨s₁, g₁⟩, s₂, ?_⟩
        rw [g₂]
        simp at ht
        rw [ht]
      obtain ⟨a1, a2, a3, a4, a5⟩ := C56_frames (.robot run₁)
      obtain ⟨b1, b2, b3, b4, b5⟩ := C56_frames (.robot run₂)
      refine ⟨fun i hi => tr _ ?_ (a2 i hi) (b2 i hi), tr _ (by decide) a1 b1, tr _ (by decide) a5 b5⟩
      intro hm
      have hh : ("T_" ++ toString (i + 1)).toList.head? = some 'T' := by simp
      simp only [parRegressors, List.mem_cons, List.not_mem_nil, or_false] at hm
      rcases hm with e | e | e | e | e | e | e <;> rw [e] at hh <;> exact absurd hh (by decide)
    rintro a (⟨i, hi, rfl⟩ | ⟨i, hi, hk, rfl⟩ | ⟨i, h3, h6, rfl | rfl⟩)
    · have := (same (fun _ => 1) (fun _ => 1) (fun _ => 1) (except (4 * i + 1)) (fun _ => 1) (fun _ => 1)).1 i hi
      refine exact_of_pair ?_
      cases hk : kindOf c i with
      | prismatic =>
        have hk' : ∀ fd fw fe, kindOf (marked c fd fw fe) i = .prismatic := fun _ _ _ => hk
        simp only [linkOf, hk'] at this
        simp [marked, except, angleOf] at this
        have := (dh_inj _ _ _ _ _).1 this
        simpa [angleOf] using this
      | revolute =>
        have hk' : ∀ fd fw fe, kindOf (marked c fd fw fe) i = .revolute := fun _ _ _ => hk
        simp only [linkOf, hk'] at this
        simp [marked, except, angleOf] at this
        have := (dh_inj _ _ _ _ _).1 this
        simpa [angleOf] using this
    · have := (same (fun _ => 1) (fun _ => 1) (fun _ => 1) (except (4 * i + 3)) (fun _ => 1) (fun _ => 1)).1 i hi
      refine exact_of_pair ?_
      have hk' : ∀ fd fw fe, kindOf (marked c fd fw fe) i = .prismatic := fun _ _ _ => hk
      simp only [linkOf, hk'] at this
      simp [marked, except, angleOf] at this
      have := (dh_inj _ _ _ _ _).2 this
      simpa [angleOf] using this
    · have := (same (fun _ => 1) (fun _ => 1) (fun _ => 1) (fun _ => 1) (except i) (fun _ => 1)).2.1
      refine exact_of_pair ?_
      obtain rfl | rfl | rfl : i = 3 ∨ i = 4 ∨ i = 5 := by omega
      · simp [mountOf, except, angleOf] at this
        simpa [angleOf] using (frame_inj _ _ _ _ _).1 this
      · simp [mountOf, except, angleOf] at this
        simpa [angleOf] using (frame_inj _ _ _ _ _).2.1 this
      · simp [mountOf, except, angleOf] at this
        simpa [angleOf] using (frame_inj _ _ _ _ _).2.2 this
    · have := (same (fun _ => 1) (fun _ => 1) (fun _ => 1) (fun _ => 1) (fun _ => 1) (except i)).2.2
      have : mountOf (fun _ => 1) c.ee = mountOf (except i) c.ee := (undone_frame c (fun _ => 1) 0 c.n).cancel
        (Eq.trans this (congrArg (· * mountOf (except i) c.ee) (frame_marked c _ _ (except i) (fun _ => 1) 0 c.n)))
      refine exact_of_pair ?_
      obtain rfl | rfl | rfl : i = 3 ∨ i = 4 ∨ i = 5 := by omega
      · simp [mountOf, except, angleOf] at this
        simpa [angleOf] using (frame_inj _ _ _ _ _).1 this
      · simp [mountOf, except, angleOf] at this
        simpa [angleOf] using (frame_inj _ _ _ _ _).2.1 this
      · simp [mountOf, except, angleOf] at this
        simpa [angleOf] using (frame_inj _ _ _ _ _).2.2 this
  · intro ha y₁ y₂ c₁ c₂ d₁ d₂ s₁ s₂ n₁ n₂ r₁ r₂ e₁ e₂ hist hm
    have hj₁ : JointsOk c₁ := by
      unfold JointsOk
      rw [s₁.n, s₁.types]
      exact hj
    have hj₂ : JointsOk c₂ := by
      unfold JointsOk
      rw [s₂.n, s₂.types]
      exact hj
    have s₁₂ : SameValues c₁ c₂ := by
      constructor
      all_goals first
        | rw [s₁.types, s₂.types] | rw [s₁.elastic, s₂.elastic] | rw [s₁.kO, s₂.kO] | rw [s₁.dO, s₂.dO] | rw [s₁.dmO, s₂.dmO] | rw [s₁.dlO, s₂.dlO]
        | rw [s₁.dh, s₂.dh] | rw [s₁.w2l, s₂.w2l] | rw [s₁.ee, s₂.ee] | rw [s₁.g, s₂.g] | rw [s₁.dyn, s₂.dyn] | rw [s₁.dl, s₂.dl] | rw [s₁.K, s₂.K]
        | rw [s₁.D, s₂.D] | rw [s₁.Dm, s₂.Dm] | rw [s₁.Mm, s₂.Mm]
    have hmix : ∀ a, MixedAngle c₁ c₂ a → FileAngle c a := by
      rintro a (⟨i, hi, -, rfl⟩ | ⟨i, hi, hp, -, rfl⟩ | ⟨i, h3, h6, ⟨-, rfl⟩ | ⟨-, rfl⟩⟩)
      · exact .inl ⟨i, by rw [← s₁.n]; exact hi, by rw [s₁.dh]⟩
      · exact .inr (.inl ⟨i, by rw [← s₁.n]; exact hi, if_pos (by rw [← s₁.types]; exact hp), by rw [s₁.dh]⟩)
      · exact .inr (.inr ⟨i, h3, h6, .inl (by rw [s₁.w2l])⟩)
      · exact .inr (.inr ⟨i, h3, h6, .inr (by rw [s₁.ee])⟩)
    obtain ⟨r, r', e, e', ht⟩ := C34_partial d₁ d₂ s₁₂ hj₁ (fun a hx => ha a (hmix a hx)) ((C35_name d₁ hj₁ n₁).1 ⟨_, e₁⟩) ((C35_name d₂ hj₂ n₂).1 ⟨_, e₂⟩)
    rw [e₁] at e
    rw [e₂] at e'
    cases e
    cases e'
    exact (ht hist hm).symm

namespace Ex

/-- A revolute joint without twist between two frames that are not turned. -/
def straight : Conf where
  types := ["R"]
  elastic := false
  kO := 0
  dO := 0
  dmO := 0
  dlO := 0
  dh := fun i => if i = 0 then 1 else 0
  fdh := fun _ => 0
  w2l := fun i => if i = 2 then 1 else 0
  fw2l := fun _ => 0
  ee := fun i => if i = 0 then 1 else 0
  fee := fun _ => 1
  g := fun i => if i = 2 then -10 else 0
  fg := fun _ => 0
  dyn := fun i => i + 1
  fdyn := fun i => if i = 0 then 1 else 0
  dl := fun _ => 0
  fdl := fun _ => 0
  K := fun _ => 0
  D := fun _ => 0
  Dm := fun _ => 0
  Mm := fun _ => 0
  fK := fun _ => 0
  fD := fun _ => 0
  fDm := fun _ => 0
  fMm := fun _ => 0

/-- With library functions that are exact at zero every choice of symbolic parameters is as good as any other for it; with a twist of a quarter turn there
are two choices that differ. -/
example (h0 : Fl.cosF 0 = 1) (h1 : Fl.sinF 0 = 0) :
    ∀ (y₁ y₂ : Yaml) (c₁ c₂ : Conf), Describes y₁ c₁ → Describes y₂ c₂ → SameValues straight c₁ → SameValues straight c₂ →
      ∀ (n₁ n₂ : String) (r₁ r₂ : Robot), robotFromFile n₁ (some y₁) true = .ok r₁ → robotFromFile n₂ (some y₂) true = .ok r₂ →
        ∀ hist : List RCall, (∀ x ∈ hist, Motion x) → Spec.trace hist r₁ = Spec.trace hist r₂ := by
  refine (C34_iff (describes_fileOf (c := straight) fun _ => ⟨rfl, rfl, rfl⟩) ⟨by decide, by decide⟩).2 fun a ha => ?_
  have hz : a = 0 := by
    rcases ha with ⟨i, hi, rfl⟩ | ⟨i, hi, hk, rfl⟩ | ⟨i, h3, h6, rfl | rfl⟩
    · show (if 4 * i + 1 = 0 then (1 : ℝ) else 0) = 0
      exact if_neg (by omega)
    · show (if 4 * i + 3 = 0 then (1 : ℝ) else 0) = 0
      exact if_neg (by omega)
    · exact if_neg (by omega)
    · exact if_neg (by omega)
  subst hz
  simp [ExactAngle, snap, h0, h1]
  norm_num

example : ¬ ∀ (y₁ y₂ : Yaml) (c₁ c₂ : Conf), Describes y₁ c₁ → Describes y₂ c₂ →
    SameValues { straight with dh := fun i => if i = 1 then c90 else 0 } c₁ → SameValues { straight with dh := fun i => if i = 1 then c90 else 0 } c₂ →
      ∀ (n₁ n₂ : String) (r₁ r₂ : Robot), @robotFromFile fl n₁ (some y₁) true = .ok r₁ → @robotFromFile fl n₂ (some y₂) true = .ok r₂ →
        ∀ hist : List RCall, (∀ x ∈ hist, Motion x) → Spec.trace hist r₁ = Spec.trace hist r₂ := fun h =>
  not_exact_c90 ((@C34_iff fl _ _ (describes_fileOf (c := { straight with dh := fun i => if i = 1 then c90 else 0 }) fun _ => ⟨rfl, rfl, rfl⟩)
    ⟨by decide, by decide⟩).1 h c90 (.inl ⟨0, by decide, rfl⟩))

end Ex

end

end Thunder
