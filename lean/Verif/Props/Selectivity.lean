import Verif.Lemmas.Twin
import Verif.Props.Pipeline
import Verif.Props.Examples

/-!
# Symbolic selectivity: C34
-/

open scoped Classical

namespace Thunder

open Spec Act Robot

noncomputable section

/-- C34 for angles on which the numeric and the symbolic route agree: two files with the same values and different choices of symbolic parameters
give robots that no history of evaluations and changes of the variables can tell apart.  Missing from the full claim: angles declared symbolic in
one file and numeric in the other whose cosine or sine is changed by the library functions and the rounding of small values to zero (then the
claim is false, `C34_fails`), and the regressors of parameters, whose number of columns is the number of symbolic parameters. -/
theorem C34_partial [Fl] {y y' : Yaml} {c c' : Conf} (h : Describes y c) (h' : Describes y' c') (hs : SameValues c c') (hj : JointsOk c)
    (ha : ∀ a, MixedAngle c c' a → ExactAngle a) {name name' : String} (hnm : RobotName name)
    (hnm' : RobotName name') :
    ∃ r r', robotFromFile name (some y) true = .ok r ∧ robotFromFile name' (some y') true = .ok r' ∧
      ∀ hist : List RCall, (∀ x ∈ hist, Motion x) → trace hist r' = trace hist r := by
  have hj' : JointsOk c' := by
    unfold JointsOk
    rw [hs.n, hs.types]
    exact hj
  obtain ⟨r, e, hd⟩ := fromFile_ok h hj.1 (typed_of hj) hnm
  obtain ⟨r', e', hd'⟩ := fromFile_ok h' hj'.1 (typed_of hj') hnm'
  refine ⟨r, r', e, e', fun hist hh => trace_twin hs hj.1 (typed_of hj) ha hist r r' hh ⟨hd.live, hd'.live, fun k hk => ?_⟩⟩
  rw [hd.arg, hd'.arg]
  unfold kept Key.idx
  simp only [hs.size, hs.val, Key.flag_var hk]

/-- When all angles are treated alike there is no hypothesis on them. -/
theorem C34_partial_angles [Fl] {y y' : Yaml} {c c' : Conf} (h : Describes y c) (h' : Describes y' c') (hs : SameValues c c') (hj : JointsOk c)
    (h1 : ∀ i < c.n, (c.fdh (4 * i + 1) = 0 ↔ c'.fdh (4 * i + 1) = 0) ∧ (c.fdh (4 * i + 3) = 0 ↔ c'.fdh (4 * i + 3) = 0))
    (h2 : ∀ i, 3 ≤ i → i < 6 → (c.fw2l i = 0 ↔ c'.fw2l i = 0) ∧ (c.fee i = 0 ↔ c'.fee i = 0)) {name name' : String} (hnm : RobotName name)
    (hnm' : RobotName name') :
    ∃ r r', robotFromFile name (some y) true = .ok r ∧ robotFromFile name' (some y') true = .ok r' ∧
      ∀ hist : List RCall, (∀ x ∈ hist, Motion x) → trace hist r' = trace hist r := by
  refine C34_partial h h' hs hj (fun a ha => ?_) hnm hnm'
  rcases ha with ⟨i, hi, hm, _⟩ | ⟨i, hi, _, hm, _⟩ | ⟨i, h3, h6, ⟨hm, _⟩ | ⟨hm, _⟩⟩
  · exact absurd (h1 i hi).1 hm
  · exact absurd (h1 i hi).2 hm
  · exact absurd (h2 i h3 h6).1 hm
  · exact absurd (h2 i h3 h6).2 hm

/-- Entries `(1,2)` and `(2,2)` of a returned 4×4 matrix. -/
def Mat.at12 (m : Mat) : Option Num := m.data[9]?
def Mat.at22 (m : Mat) : Option Num := m.data[10]?

theorem twist_entries [Fl] {c : Conf} {r : Robot} (hd : Done c r (Fn.lib c)) {i : ℕ} (hi : i < c.n) : ∃ m r', Robot.get ("T_" ++ toString (i + 1)) r = .ok m r' ∧
    Mat.at12 m = some (some (-(if c.fdh (4 * i + 1) = 0 then snap (Fl.sinF (c.dh (4 * i + 1))) else Real.sin (c.dh (4 * i + 1))))) ∧
    Mat.at22 m = some (some (if c.fdh (4 * i + 1) = 0 then snap (Fl.cosF (c.dh (4 * i + 1))) else Real.cos (c.dh (4 * i + 1)))) := by
  obtain ⟨r', e⟩ := hd.get (g := (Fn.T (i + 1)).reg c) ⟨.T (i + 1), by simp only [Fn.Valid]; omega, rfl⟩
  refine ⟨_, r', e, ?_⟩
  have hex : ((Fn.T (i + 1)).reg c).expr = (base c).Ti (i + 1) := rfl
  simp only [Mat.at12, Mat.at22, hex]
  have hom := (base c).Ti_isHomOf i
  have key : ∀ a : Fin 3, (((base c).Ti (i + 1)).elements.map fun e => some (e.eval (fileVal c)))[(a : ℕ) + 4 * 2]? =
      some (some ((base c).linkRot (fileVal c) i a 2)) := by
    intro a
    have := getElem?_elements (A := (base c).Ti (i + 1)) (i := a) (j := 2) (by rw [hom.rows]; omega) (by rw [hom.cols]; omega)
    rw [hom.rows] at this
    rw [List.getElem?_map, this, Option.map_some, ← Base.val_linkR, hom.e]
    simp [homog, SX.val]
  have hang : ang (fileVal c) ((base c).alphaE i) =
      (if c.fdh (4 * i + 1) = 0 then snap (Fl.cosF (c.dh (4 * i + 1))) else Real.cos (c.dh (4 * i + 1)),
        if c.fdh (4 * i + 1) = 0 then snap (Fl.sinF (c.dh (4 * i + 1))) else Real.sin (c.dh (4 * i + 1))) := by
    unfold Base.alphaE
    show ang _ ((kmod c .DH).e (i * 4 + 1) 0) = _
    rw [kmod_here (k := .DH) trivial, Nat.mul_comm i 4]
    have hsz : 4 * i + 1 < Key.DH.size c := by simp only [Key.size]; omega
    by_cases h0 : c.fdh (4 * i + 1) = 0
    · rw [Key.mat_num hsz h0]
      simp only [h0, if_true]
      rfl
    · rw [Key.mat_sym hsz h0]
      simp only [h0, if_false]
      show cs (fileVal c ⟨Key.DH.sym, 4 * i + 1⟩) = _
      rw [fileVal_key]
      rfl
  have k1 := key 1
  have k2 := key 2
  rw [Base.linkRot, hang] at k1 k2
  refine ⟨k1.trans ?_, k2.trans ?_⟩
  · congr 2
    simp [rX, rZ, Matrix.mul_apply, Fin.sum_univ_three]
  · congr 2
    simp [rX, rZ, Matrix.mul_apply, Fin.sum_univ_three]

/-- The hypothesis on the twist angles in `C34_partial` cannot be dropped: whenever a twist angle is symbolic in one file and numeric in the other and
the library functions with rounding of small values are not exact on it, the transformation of that joint differs. -/
theorem C34_needs_exact [Fl] {y y' : Yaml} {c c' : Conf} (h : Describes y c) (h' : Describes y' c') (hs : SameValues c c') (hj : JointsOk c) {i : ℕ}
    (hi : i < c.n) (h1 : c.fdh (4 * i + 1) ≠ 0) (h2 : c'.fdh (4 * i + 1) = 0) (ha : ¬ ExactAngle (c.dh (4 * i + 1))) {name name' : String} (hnm : RobotName name)
    (hnm' : RobotName name') :
    ∃ r r' m m' s s', robotFromFile name (some y) true = .ok r ∧ robotFromFile name' (some y') true = .ok r' ∧
      Robot.get ("T_" ++ toString (i + 1)) r = .ok m s ∧ Robot.get ("T_" ++ toString (i + 1)) r' = .ok m' s' ∧ m.data ≠ m'.data := by
  have hj' : JointsOk c' := by
    unfold JointsOk
    rw [hs.n, hs.types]
    exact hj
  obtain ⟨r, e, hd⟩ := fromFile_ok h hj.1 (typed_of hj) hnm
  obtain ⟨r', e', hd'⟩ := fromFile_ok h' hj'.1 (typed_of hj') hnm'
  obtain ⟨m, s, g, p, q⟩ := twist_entries hd hi
  obtain ⟨m', s', g', p', q'⟩ := twist_entries hd' (i := i) (by rw [hs.n]; exact hi)
  refine ⟨r, r', m, m', s, s', e, e', g, g', fun hm => ha ?_⟩
  rw [if_neg h1] at p q
  rw [if_pos h2, hs.dh] at p' q'
  unfold Mat.at12 at p p'
  unfold Mat.at22 at q q'
  rw [hm, p'] at p
  rw [hm, q'] at q
  exact ⟨Option.some.inj (Option.some.inj q), neg_injective (Option.some.inj (Option.some.inj p))⟩

namespace Ex

/-- A joint with a twist of a quarter turn (the nearest `double`), which is symbolic or numeric. -/
def quarter (s : ℤ) : Conf := { mixed with dh := fun i => if i = 1 then c90 else 0, fdh := fun i => if i = 1 then s else 0 }

theorem cos_c90 : Real.cos c90 ≠ 0 := by
  have h1 := Real.pi_gt_d20
  have h2 := Real.pi_lt_d20
  have : 0 < Real.cos c90 := Real.cos_pos_of_mem_Ioo ⟨by unfold c90; linarith, by unfold c90; linarith⟩
  exact this.ne'

theorem not_exact_c90 : ¬ @ExactAngle fl c90 := fun h => cos_c90 (by rw [← h.1]; exact snap_cos_c90)

end Ex

/-- C34 fails: a joint with a twist of a quarter turn has another transformation when the twist is symbolic. -/
theorem C34_fails : ∃ (y y' : Yaml) (c c' : Conf), Describes y c ∧ Describes y' c' ∧ SameValues c c' ∧ JointsOk c ∧
    ∃ r r' m m' s s', @robotFromFile Ex.fl "robot" (some y) true = .ok r ∧ @robotFromFile Ex.fl "robot" (some y') true = .ok r' ∧
      Robot.get "T_1" r = .ok m s ∧ Robot.get "T_1" r' = .ok m' s' ∧ m.data ≠ m'.data := by
  have d := Ex.describes_fileOf (c := Ex.quarter 1) (fun h => nomatch h)
  have d' := Ex.describes_fileOf (c := Ex.quarter 0) (fun h => nomatch h)
  have hs : SameValues (Ex.quarter 1) (Ex.quarter 0) := ⟨rfl, rfl, rfl, rfl, rfl, rfl, rfl, rfl, rfl, rfl, rfl, rfl, rfl, rfl, rfl, rfl⟩
  have hj : JointsOk (Ex.quarter 1) := Ex.joints_mixed
  refine ⟨_, _, _, _, d, d', hs, hj, ?_⟩
  have hd1 : (Ex.quarter 1).dh (4 * 0 + 1) = Ex.c90 := rfl
  exact @C34_needs_exact Ex.fl _ _ _ _ d d' hs hj 0 (by decide) (by decide) (by decide) (by rw [hd1]; exact Ex.not_exact_c90) _ _
    (robotName_of_check (f := "M") (by decide +kernel)) (robotName_of_check (f := "M") (by decide +kernel))

namespace Ex

/-- `mixed` with other symbolic parameters, among them lengths, inertial parameters and stiffnesses; the angles are as in `mixed`. -/
def mixed' : Conf := { mixed with
  fdh := fun i => if i % 3 = 0 ∨ i = 2 then 1 else 0
  fdyn := fun i => if i % 2 = 0 then 1 else 0
  fg := fun _ => 1
  fK := fun i => if i = 1 then 1 else 0 }

example : Describes (fileOf mixed) mixed ∧ Describes (fileOf mixed') mixed' ∧ SameValues mixed mixed' ∧ JointsOk mixed ∧
    (∀ i < mixed.n, (mixed.fdh (4 * i + 1) = 0 ↔ mixed'.fdh (4 * i + 1) = 0) ∧ (mixed.fdh (4 * i + 3) = 0 ↔ mixed'.fdh (4 * i + 3) = 0)) ∧
    (∀ i, 3 ≤ i → i < 6 → (mixed.fw2l i = 0 ↔ mixed'.fw2l i = 0) ∧ (mixed.fee i = 0 ↔ mixed'.fee i = 0)) ∧
    mixed.fdh 2 ≠ mixed'.fdh 2 ∧ mixed.fdyn 2 ≠ mixed'.fdyn 2 :=
  ⟨describes_mixed, describes_fileOf (fun h => nomatch h), ⟨rfl, rfl, rfl, rfl, rfl, rfl, rfl, rfl, rfl, rfl, rfl, rfl, rfl, rfl, rfl, rfl⟩, joints_mixed,
    by decide, fun _ _ _ => ⟨Iff.rfl, Iff.rfl⟩, by decide, by decide⟩

/-- A history to which it applies. -/
example : ∀ x ∈ [RCall.setVar .q [some 1, some 2], .get "M", .setArg "x" [some 3], .get "k", .getArg "q", .get "no such function"], Motion x := by
  simp [Motion, parRegressors, motionNames]

/-- An angle for which the two routes agree. -/
example : @ExactAngle fl 0 := ⟨by rw [snap_zero.1, Real.cos_zero], by rw [snap_zero.2, Real.sin_zero]⟩

end Ex

end

end Thunder
