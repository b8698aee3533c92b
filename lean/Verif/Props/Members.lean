import Verif.Lemmas.Members
import Verif.Props.System
import Verif.Lemmas.Body
import Mathlib.LinearAlgebra.CrossProduct

/-!
# The constants of a robot and the members of a `FrameOffset`: C77, C78
-/

open scoped Classical
open Matrix

namespace Thunder

noncomputable section

open Spec Robot

section

variable [Fl]

/-- C77: whatever functions the user adds, whether or not the functions are computed, and after any calls, also failing ones, the getters of the sizes, types and
orders give the values of the file and the name is the one given. -/
theorem C77 {y : Yaml} {c : Conf} (h : Describes y c) {us : List UserFun} {name : String} {b : Bool} {r₀ r : Robot}
    (e : robotFromFileWith us name (some y) b = .ok r₀) {hist : List RCall} (e' : after hist r₀ = some r) :
    r.getNumJoints = c.types.length ∧ r.getJointsType = c.types ∧ r.getELASTIC = c.elastic ∧
      r.getIsElasticJoint = (c.types.map fun t => if t = "R_SEA" ∨ t = "P_SEA" then 1 else 0) ∧ r.getNumElasticJoints = r.getIsElasticJoint.sum ∧
      r.getKOrder = c.kO ∧ r.getDOrder = c.dO ∧ r.getDlOrder = c.dlO ∧ r.getDmOrder = c.dmO ∧
      r.getNumParDYN = 10 * c.types.length ∧ r.getNumParREG = 10 * c.types.length ∧ r.name = name := by
  have hf : r.frozen = { robotOf c with name := name }.frozen :=
    after_keeps (I := fun r => r.frozen = { robotOf c with name := name }.frozen) (fun x _ => keeps_frozen x) (fromFileWith_frozen h e) e'
  obtain ⟨⟨h1, h2, h3, h4, h5, h6⟩, h7, h8, h9, h10⟩ : (_ ∧ _ ∧ _ ∧ _ ∧ _ ∧ _) ∧ _ ∧ _ ∧ _ ∧ _ := by simpa only [frozen, Prod.mk.injEq] using hf
  have hE : r.getIsElasticJoint = (c.types.map fun t => if t = "R_SEA" ∨ t = "P_SEA" then 1 else 0) := by
    show r.isEla = _
    rw [h6]
    refine List.map_congr_left fun t _ => ?_
    simp only [isSEA, Bool.or_eq_true, beq_iff_eq]
  refine ⟨congrArg Nat.cast h2, h5, h4, hE, ?_, h7, h8, h9, h10, ?_, ?_, h1⟩
  · rw [hE]
    show ((r.ne : ℕ) : ℤ) = _
    rw [h3]
    show ((c.types.countP _ : ℕ) : ℤ) = _
    induction c.types with
    | nil => rfl
    | cons t l ih =>
      rw [List.countP_cons, List.map_cons, List.sum_cons, ← ih]
      by_cases ht : t = "R_SEA" ∨ t = "P_SEA"
      · simp [ht, add_comm]
      · simp [ht]
  · show 10 * ((r.n : ℕ) : ℤ) = _
    rw [h2]
    rfl
  · show 10 * ((r.n : ℕ) : ℤ) = _
    rw [h2]
    rfl

end

/-! ## C78 -/

namespace FrameOffset

/-- Whether the call sets the same member. -/
def Setter.like : Setter → Setter → Prop
  | .gravity _, .gravity _ => True
  | .translation _, .translation _ => True
  | .ypr _, .ypr _ => True
  | _, _ => False

/-- C78, the part that holds: the constructors accept exactly vectors of three numbers, and on the objects they make all getters are defined.
Full claim (false, see `C78_fails`): the getters are defined on every object, also after calls of the setters. -/
theorem C78_new_partial (a p g : List Num) :
    ((∃ f, mk3 a p g = some f) ↔ a.length = 3 ∧ p.length = 3 ∧ g.length = 3) ∧ ((∃ f, mk2 a p = some f) ↔ a.length = 3 ∧ p.length = 3) ∧
      ∀ f, f = mk0 ∨ mk2 a p = some f ∨ mk3 a p g = some f →
        getTranslation f ≠ none ∧ getGravity f ≠ none ∧ getRotation f ≠ none ∧ getTransform f ≠ none := by
  have key : ∀ v : List Num, v.length = 3 → ∃ w, three v = some w := fun v hv => by
    obtain ⟨x, y, z, rfl⟩ := List.length_eq_three.1 hv
    exact ⟨_, rfl⟩
  have all : ∀ f : FrameOffset, f.ypr.length = 3 → f.translation.length = 3 → f.gravity.length = 3 →
      getTranslation f ≠ none ∧ getGravity f ≠ none ∧ getRotation f ≠ none ∧ getTransform f ≠ none := fun f h1 h2 h3 => by
    obtain ⟨w1, e1⟩ := key _ h1
    obtain ⟨w2, e2⟩ := key _ h2
    obtain ⟨w3, e3⟩ := key _ h3
    simp [getTranslation, getGravity, getRotation, getTransform, e1, e2, e3]
  refine ⟨?_, ?_, fun f hf => ?_⟩
  · unfold mk3; split_ifs with h <;> simp [h]
  · unfold mk2; split_ifs with h <;> simp [h]
  · rcases hf with rfl | h | h
    · exact all _ rfl rfl rfl
    · unfold mk2 at h
      split_ifs at h with hl
      cases h
      exact all _ hl.1 hl.2 rfl
    · unfold mk3 at h
      split_ifs at h with hl
      cases h
      exact all _ hl.1 hl.2.1 hl.2.2

theorem three_iff {v : List Num} {w : Fin 3 → Num} : three v = some w ↔ ∃ l, v = w 0 :: w 1 :: w 2 :: l := by
  constructor
  · intro h
    match v, h with
    | a :: b :: c :: l, h =>
      cases h
      exact ⟨l, rfl⟩
  · rintro ⟨l, rfl⟩
    exact congrArg some (by ext i; fin_cases i <;> rfl)

/-- C78: after any calls of setters, what a getter gives depends on the last vector given to the setter of its member alone.  It is defined exactly when
that vector has at least three numbers, the first three of which are used. -/
theorem C78_last (f : FrameOffset) (pre post : List Setter) (v : List Num) :
    ((∀ x ∈ post, ¬ x.like (.translation v)) →
      ∀ w, getTranslation ((pre ++ .translation v :: post).foldl set f) = some w ↔ ∃ l, v = w 0 :: w 1 :: w 2 :: l) ∧
    ((∀ x ∈ post, ¬ x.like (.gravity v)) → ∀ w, getGravity ((pre ++ .gravity v :: post).foldl set f) = some w ↔ ∃ l, v = w 0 :: w 1 :: w 2 :: l) ∧
    ((∀ x ∈ post, ¬ x.like (.ypr v)) → getYpr ((pre ++ .ypr v :: post).foldl set f) = v ∧
      ∀ R, getRotation ((pre ++ .ypr v :: post).foldl set f) = some R ↔ ∃ a b c l, v = a :: b :: c :: l ∧ R = rpyRot ![c, b, a]) := by
  have keep : ∀ {α : Type} (π : FrameOffset → α) (P : Setter → Prop), (∀ g x, ¬ P x → π (set g x) = π g) → ∀ (l : List Setter) (g : FrameOffset),
      (∀ x ∈ l, ¬ P x) → π (l.foldl set g) = π g := by
    intro α π P h l
    induction l with
    | nil => intro g _; rfl
    | cons x l ih =>
      intro g hl
      exact (ih _ fun z hz => hl z (List.mem_cons_of_mem _ hz)).trans (h g x (hl x List.mem_cons_self))
  refine ⟨fun hp w => ?_, fun hp w => ?_, fun hp => ?_⟩
  · have e : ((pre ++ Setter.translation v :: post).foldl set f).translation = v := by
      rw [List.foldl_append, List.foldl_cons]
      exact keep FrameOffset.translation (fun x => x.like (.translation v)) (fun g x hx => by cases x <;> first | rfl | exact absurd trivial hx) _ _ hp
    unfold getTranslation
    rw [e]
    exact three_iff
  · have e : ((pre ++ Setter.gravity v :: post).foldl set f).gravity = v := by
      rw [List.foldl_append, List.foldl_cons]
      exact keep FrameOffset.gravity (fun x => x.like (.gravity v)) (fun g x hx => by cases x <;> first | rfl | exact absurd trivial hx) _ _ hp
    unfold getGravity
    rw [e]
    exact three_iff
  · have e : ((pre ++ Setter.ypr v :: post).foldl set f).ypr = v := by
      rw [List.foldl_append, List.foldl_cons]
      exact keep FrameOffset.ypr (fun x => x.like (.ypr v)) (fun g x hx => by cases x <;> first | rfl | exact absurd trivial hx) _ _ hp
    refine ⟨e, fun R => ?_⟩
    unfold getRotation rotation
    rw [e, Option.map_eq_some_iff]
    constructor
    · rintro ⟨w, hw, rfl⟩
      obtain ⟨l, rfl⟩ := three_iff.1 hw
      exact ⟨_, _, _, l, rfl, rfl⟩
    · rintro ⟨a, b, c, l, rfl, rfl⟩
      exact ⟨_, rfl, rfl⟩

/-- C78: `hat` of three numbers is the matrix of the vector product. -/
theorem C78_hat (v w : Fin 3 → ℝ) : ∃ H : Matrix (Fin 3) (Fin 3) ℝ, hat [some (v 0), some (v 1), some (v 2)] = some (real3 H) ∧ H *ᵥ w = crossProduct v w := by
  refine ⟨!![0, -v 2, v 1; v 2, 0, -v 0; -v 1, v 0, 0], ?_, ?_⟩
  · refine congrArg some ?_
    ext i j
    fin_cases i <;> fin_cases j <;> rfl
  · ext i
    fin_cases i <;> simp [mulVec, dotProduct, Fin.sum_univ_three, crossProduct] <;> ring

/-- C78 is false of the code: the setters do not look at the size, so that a getter reads past the end; and `hat` reports a wrong size but goes on. -/
theorem C78_fails : getRotation (set mk0 (.ypr [some 1])) = none ∧ getTransform (set mk0 (.translation [])) = none ∧ hat [some 1, some 2] = none ∧
    ∃ H, hat [some 1, some 2, some 3, some 4] = some H := ⟨rfl, rfl, rfl, _, rfl⟩

end FrameOffset

namespace Ex

/-- The arm of the examples after some calls. -/
example : ∃ r, @Running fl (fileOf arm) armTuned armState r ∧ r.getNumJoints = 2 ∧ r.getNumElasticJoints = 1 ∧ r.getIsElasticJoint = [0, 1] := by
  obtain ⟨r, h⟩ := running_arm
  obtain ⟨name, r₀, hist, e, -, e'⟩ := (@Spec.Running.use fl _ _ _ _ h)
  obtain ⟨h1, -, -, h4, h5, -⟩ := @C77 fl _ _ describes_arm [] name true r₀ r (Eq.trans rfl e) hist e'
  refine ⟨r, h, h1, ?_, ?_⟩
  · rw [h5, h4]; rfl
  · rw [h4]; rfl

example : FrameOffset.getTranslation (List.foldl FrameOffset.set FrameOffset.mk0
    ([.gravity []] ++ .translation [some 1, some 2, some 3] :: [.ypr [some 5]])) = some ![some 1, some 2, some 3] :=
  ((FrameOffset.C78_last _ _ _ _).1 (by simp [FrameOffset.Setter.like]) _).2 ⟨[], rfl⟩

end Ex

end

end Thunder
