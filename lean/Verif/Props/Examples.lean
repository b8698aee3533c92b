import Verif.Lemmas.Chain
import Mathlib.Analysis.Real.Pi.Bounds

/-!
# A concrete robot used by the examples next to the property theorems

Three joints (revolute, prismatic, elastic revolute), some numeric and some symbolic parameters, and a library `cos`/`sin` that
rounds to a multiple of 2⁻⁵³.
-/

open scoped Classical

namespace Thunder.Ex

noncomputable section

/-- Rounding to a multiple of 2⁻⁵³. -/
def rnd (x : ℝ) : ℝ := (round (x * 2 ^ 53) : ℝ) / 2 ^ 53

/-- Library functions with a rounding error. -/
@[instance_reducible] def fl : Fl := ⟨fun x => rnd (Real.cos x), fun x => rnd (Real.sin x)⟩

/-- Parameter vector with the given entries: `none` is symbolic, `some c` is numeric. -/
def parX (name : String) (l : List (Option ℝ)) : SX :=
  ⟨l.length, 1, fun i j => if j = 0 then
    match l[i]? with
    | some none => .var ⟨name, i⟩
    | some (some c) => .const c
    | none => .const 0
    else .const 0, True⟩

theorem parX_parVec (name : String) (l : List (Option ℝ)) : ParVec name l.length (parX name l) where
  ok := trivial
  rows := rfl
  cols := rfl
  e := by
    intro i j
    simp only [parX]
    split_ifs with h
    · rcases hl : l[i]? with _ | (_ | c)
      · exact .inr ⟨0, rfl⟩
      · refine .inl ⟨rfl, ?_, h⟩
        exact (List.getElem?_eq_some_iff.mp hl).1
      · exact .inr ⟨c, rfl⟩
    · exact .inr ⟨0, rfl⟩

/-- The double closest to π/2, as written in configuration files. -/
def c90 : ℝ := 1.5707963267948966

/-- DH table: joint 1 symbolic `a`, `alpha` numeric 90°; joint 2 prismatic with numeric `theta`; joint 3 all symbolic. -/
def dhL : List (Option ℝ) :=
  [none, some c90, some 0.3, some 0, some 0.1, some 0, none, some c90, none, none, none, none]

def w2lL : List (Option ℝ) := [none, some 1, some 2, none, some 0, some c90]
def eeL : List (Option ℝ) := [some 0.1, some 0, none, some c90, none, some 0]
def gL : List (Option ℝ) := [some 0, none, some (-9.81)]

/-- Inertial parameters: link 1 numeric, link 2 symbolic, link 3 mixed. -/
def dynL : List (Option ℝ) :=
  [some 2, some 0.1, some 0, some 0.3, some 1, some 0, some 0, some 1, some 0, some 1,
   none, none, none, none, none, none, none, none, none, none,
   some 1, none, some 0.2, some 0, some 1, some 0.1, some 0, some 2, some 0, some 1]

/-- The example robot. -/
def B : Base where
  n := 3
  types := ["R", "P", "R_SEA"]
  q := .sym "q" 3
  dq := .sym "dq" 3
  ddq := .sym "ddq" 3
  d3q := .sym "d3q" 3
  dqr := .sym "dqr" 3
  ddqr := .sym "ddqr" 3
  w := .sym "w" 6
  x := .sym "x" 1
  dx := .sym "dx" 1
  ddx := .sym "ddx" 1
  dh := parX "DHtable" dhL
  w2l := parX "world2L0" w2lL
  ee := parX "Ln2EE" eeL
  g := parX "gravity" gL
  dyn := parX "par_DYN" dynL
  dl := parX "par_Dl" [none, some 0.1, none]
  parK := parX "par_K" [none, some 0.5]
  parD := parX "par_D" [some 0.2, none]
  parDm := parX "par_Dm" [none]
  parMm := parX "par_Mm" [none]

theorem wf : B.WF where
  npos := by decide
  len := rfl
  types := by
    intro i hi
    have : i = 0 ∨ i = 1 ∨ i = 2 := by simp only [B] at hi; omega
    rcases this with rfl | rfl | rfl <;> simp [Base.ty, B, isP, isR]
  q := rfl
  dq := rfl
  ddq := rfl
  d3q := rfl
  dqr := rfl
  ddqr := rfl
  w := rfl
  dh := (parX_parVec "DHtable" dhL : ParVec "DHtable" 12 _)
  w2l := (parX_parVec "world2L0" w2lL : ParVec "world2L0" 6 _)
  ee := (parX_parVec "Ln2EE" eeL : ParVec "Ln2EE" 6 _)
  g := (parX_parVec "gravity" gL : ParVec "gravity" 3 _)
  dyn := (parX_parVec "par_DYN" dynL : ParVec "par_DYN" 30 _)

theorem rnd_one {x : ℝ} (h : |x - 1| < 1e-20) : rnd x = 1 := by
  rw [abs_lt] at h
  have : round (x * 2 ^ 53) = 2 ^ 53 := by
    rw [round_eq, Int.floor_eq_iff]
    push_cast
    constructor <;> [nlinarith; nlinarith]
  rw [rnd, this]; norm_num

theorem rnd_small {x : ℝ} (h : |x| < 1e-15 / 2) : |rnd x| < 1e-15 := by
  have h1 : |x * 2 ^ 53 - round (x * 2 ^ 53)| ≤ 1 / 2 := abs_sub_round _
  have h2 : |rnd x - x| ≤ 1 / 2 / 2 ^ 53 := by
    have e : rnd x - x = -((x * 2 ^ 53 - round (x * 2 ^ 53)) / 2 ^ 53) := by rw [rnd]; field_simp; ring
    rw [e, abs_neg, abs_div, abs_of_pos (by positivity : (0 : ℝ) < 2 ^ 53)]
    gcongr
  have h3 : |rnd x| ≤ |rnd x - x| + |x| := by
    have := abs_add_le (rnd x - x) x
    simpa using this
  have h4 : (1 : ℝ) / 2 / 2 ^ 53 < 1e-15 / 2 := by norm_num
  linarith

theorem snap_zero : Spec.snap (fl.cosF 0) = 1 ∧ Spec.snap (fl.sinF 0) = 0 := by
  have h1 : (fl.cosF 0) = 1 := by
    change rnd (Real.cos 0) = 1
    rw [Real.cos_zero]; exact rnd_one (by norm_num)
  have h2 : |fl.sinF 0| < 1e-15 := by
    change |rnd (Real.sin 0)| < _
    rw [Real.sin_zero]; exact rnd_small (by norm_num)
  simp only [Spec.snap, h1, h2, if_true]
  rw [if_neg (by norm_num)]; simp

theorem unit_zero : @UnitAngle fl 0 := by
  unfold UnitAngle; rw [snap_zero.1, snap_zero.2]; norm_num

theorem c90_close : |Real.pi / 2 - c90| < 1e-16 := by
  have h1 := Real.pi_gt_d20
  have h2 := Real.pi_lt_d20
  rw [abs_lt, c90]; constructor <;> linarith

theorem snap_c90 : Spec.snap (fl.cosF c90) = 0 ∧ Spec.snap (fl.sinF c90) = 1 := by
  have hc : |Real.cos c90| < 1e-15 / 2 := by
    have : Real.cos c90 = Real.sin (Real.pi / 2 - c90) := (Real.sin_pi_div_two_sub _).symm
    rw [this]
    refine (Real.abs_sin_le_abs).trans_lt (c90_close.trans (by norm_num))
  have hs : |Real.sin c90 - 1| < 1e-20 := by
    have : Real.sin c90 = Real.cos (Real.pi / 2 - c90) := (Real.cos_pi_div_two_sub _).symm
    rw [this, abs_sub_comm, abs_of_nonneg (by linarith [Real.cos_le_one (Real.pi / 2 - c90)])]
    have h := Real.one_sub_sq_div_two_le_cos (x := Real.pi / 2 - c90)
    have h2 : (Real.pi / 2 - c90) ^ 2 < 1e-16 ^ 2 := by
      rw [← sq_abs]; exact pow_lt_pow_left₀ c90_close (abs_nonneg _) (by norm_num)
    have : (1e-16 : ℝ) ^ 2 / 2 < 1e-20 := by norm_num
    linarith
  have h1 : |fl.cosF c90| < 1e-15 := rnd_small hc
  have h2 : fl.sinF c90 = 1 := rnd_one hs
  simp only [Spec.snap, h1, h2, if_true]
  rw [if_neg (by norm_num)]; simp

theorem unit_c90 : @UnitAngle fl c90 := by
  unfold UnitAngle; rw [snap_c90.1, snap_c90.2]; norm_num

theorem snap_cos_c90 : Spec.snap (fl.cosF c90) = 0 := snap_c90.1
theorem snap_sin_c90 : Spec.snap (fl.sinF c90) = 1 := snap_c90.2

theorem unit : @Base.UnitAngles fl B := by
  have key : ∀ c : ℝ, (0 = c ∨ c90 = c) → @UnitAngle fl c := by
    rintro c (rfl | rfl)
    · exact unit_zero
    · exact unit_c90
  intro c hc
  apply key
  rcases hc with ⟨i, hi, h⟩ | ⟨k, h1, h2, h⟩
  · have : i = 0 ∨ i = 1 ∨ i = 2 := by simp only [B] at hi; omega
    rcases this with rfl | rfl | rfl <;>
      simp [Base.ty, B, isP, parX, dhL] at h <;> tauto
  · have : k = 3 ∨ k = 4 ∨ k = 5 := by omega
    rcases this with rfl | rfl | rfl <;>
      simp [B, parX, w2lL, eeL] at h <;> tauto

def dhL2 : List (Option ℝ) := [none, some 0, some 0.3, some 0, some 0.1, none, none, some 0, none, none, none, none]
def w2lL2 : List (Option ℝ) := [none, some 1, some 2, none, some 0, some 0]
def eeL2 : List (Option ℝ) := [some 0.1, some 0, none, some 0, none, some 0]

/-- Variant in which every numeric angle is 0. -/
def B2 : Base := { B with
  dh := parX "DHtable" dhL2
  w2l := parX "world2L0" w2lL2
  ee := parX "Ln2EE" eeL2 }

theorem wf2 : B2.WF := { wf with
  dh := (parX_parVec "DHtable" dhL2 : ParVec "DHtable" 12 _)
  w2l := (parX_parVec "world2L0" w2lL2 : ParVec "world2L0" 6 _)
  ee := (parX_parVec "Ln2EE" eeL2 : ParVec "Ln2EE" 6 _) }

theorem exact2 : @Base.ExactAngles fl B2 := by
  have key : ∀ c : ℝ, 0 = c → @ExactAngle fl c := by
    rintro c rfl
    exact ⟨by rw [snap_zero.1, Real.cos_zero], by rw [snap_zero.2, Real.sin_zero]⟩
  intro c hc
  apply key
  rcases hc with ⟨i, hi, h⟩ | ⟨k, h1, h2, h⟩
  · have : i = 0 ∨ i = 1 ∨ i = 2 := by simp only [B2, B] at hi; omega
    rcases this with rfl | rfl | rfl <;>
      simp [Base.ty, B, B2, isP, parX, dhL2] at h <;> tauto
  · have : k = 3 ∨ k = 4 ∨ k = 5 := by omega
    rcases this with rfl | rfl | rfl <;>
      simp [B2, parX, w2lL2, eeL2] at h <;> tauto

end

end Thunder.Ex
