import Verif.Spec.Fleet

/-!
# The robot files: angles
-/

namespace Thunder

noncomputable section

open Spec Robot Ship Spec.Ship

/-- Zero or a right angle. -/
def RightA (a : ℝ) : Prop := a = 0 ∨ a = rightAngle ∨ a = -rightAngle

theorem right_zero : RightA 0 := .inl rfl
theorem right_pos : RightA 1.5707963267948966 := .inr (.inl rfl)
theorem right_neg : RightA (-1.5707963267948966) := .inr (.inr rfl)

variable [Fl]

omit [Fl] in
theorem snap_small {x : ℝ} (h : |x| < 1e-15) : snap x = 0 := if_pos h

theorem unit_right (h : RightAngles) {a : ℝ} (ha : RightA a) : snap (Fl.cosF a) ^ 2 + snap (Fl.sinF a) ^ 2 = 1 := by
  rcases ha with rfl | rfl | rfl
  · rw [h.cos0, h.sin0, snap, snap]; norm_num
  · rw [snap_small h.cosR, h.sinR, snap]; norm_num
  · rw [snap_small h.cosL, h.sinL, snap]; norm_num

theorem unit_of (h : RightAngles) {c : Conf} (hd : ∀ i < c.n, RightA (c.dh (4 * i + 1))) (ht : ∀ i < c.n, RightA (c.dh (4 * i + 3)))
    (hw : ∀ i < 6, 3 ≤ i → RightA (c.w2l i)) (he : ∀ i < 6, 3 ≤ i → RightA (c.ee i)) : UnitNumeric c := by
  intro a ha
  refine unit_right h ?_
  rcases ha with ⟨i, hi, -, rfl⟩ | ⟨i, hi, -, -, rfl⟩ | ⟨i, h1, h2, ⟨-, rfl⟩ | ⟨-, rfl⟩⟩
  · exact hd i hi
  · exact ht i hi
  · exact hw i h2 h1
  · exact he i h2 h1

/-- 3 angles are right. -/
local macro "angles3!" : term => `(fun i hi => match i, hi with
  | 0, _ | 1, _ | 2, _ => by first | exact right_zero | exact right_pos | exact right_neg)
/-- 5 angles are right. -/
local macro "angles5!" : term => `(fun i hi => match i, hi with
  | 0, _ | 1, _ | 2, _ | 3, _ | 4, _ => by first | exact right_zero | exact right_pos | exact right_neg)
/-- 7 angles are right. -/
local macro "angles7!" : term => `(fun i hi => match i, hi with
  | 0, _ | 1, _ | 2, _ | 3, _ | 4, _ | 5, _ | 6, _ => by first | exact right_zero | exact right_pos | exact right_neg)
/-- 8 angles are right. -/
local macro "angles8!" : term => `(fun i hi => match i, hi with
  | 0, _ | 1, _ | 2, _ | 3, _ | 4, _ | 5, _ | 6, _ | 7, _ => by first | exact right_zero | exact right_pos | exact right_neg)
/-- 9 angles are right. -/
local macro "angles9!" : term => `(fun i hi => match i, hi with
  | 0, _ | 1, _ | 2, _ | 3, _ | 4, _ | 5, _ | 6, _ | 7, _ | 8, _ => by first | exact right_zero | exact right_pos | exact right_neg)
/-- The three angles of an offset are right. -/
local macro "offset!" : term => `(fun i hi h3 => match i, hi, h3 with
  | 3, _, _ | 4, _, _ | 5, _, _ => by first | exact right_zero | exact right_pos | exact right_neg)

theorem unit_RRR (h : RightAngles) : UnitNumeric RRRC := unit_of h angles3! angles3! offset! offset!
theorem unit_seaRRR (h : RightAngles) : UnitNumeric seaRRRC := unit_of h angles3! angles3! offset! offset!
theorem unit_franka (h : RightAngles) : UnitNumeric frankaC := unit_of h angles7! angles7! offset! offset!
theorem unit_wrist (h : RightAngles) : UnitNumeric wristC := unit_of h angles8! angles8! offset! offset!
theorem unit_R3 (h : RightAngles) : UnitNumeric R3C := unit_of h angles3! angles3! offset! offset!
theorem unit_R5 (h : RightAngles) : UnitNumeric R5C := unit_of h angles5! angles5! offset! offset!
theorem unit_R7 (h : RightAngles) : UnitNumeric R7C := unit_of h angles7! angles7! offset! offset!
theorem unit_R9 (h : RightAngles) : UnitNumeric R9C := unit_of h angles9! angles9! offset! offset!
theorem unit_R9k (h : RightAngles) : UnitNumeric R9kC := unit_of h angles9! angles9! offset! offset!
theorem unit_R9n (h : RightAngles) : UnitNumeric R9nC := unit_of h angles9! angles9! offset! offset!
theorem unit_oldRRR (h : RightAngles) : UnitNumeric oldRRRC := unit_of h angles3! angles3! offset! offset!
theorem unit_oldSea (h : RightAngles) : UnitNumeric oldSeaC := unit_of h angles3! angles3! offset! offset!
theorem unit_oldFranka (h : RightAngles) : UnitNumeric oldFrankaC := unit_of h angles7! angles7! offset! offset!

end

end Thunder
