import Verif.Lemmas.Mount
import Verif.Lemmas.Energy
import Verif.Props.Examples

/-!
# Property C54: mounting the robot elsewhere
-/

open scoped Classical
open Matrix

namespace Thunder

noncomputable section

namespace Ex

/-- The example robot mounted with the placement of `B2` and a fully symbolic gravity vector. -/
def BM : Base := B.remount (parX "world2L0" w2lL2) (parX "gravity" [none, none, none])

theorem wfMount : BM.WF where
  npos := wf.npos
  len := wf.len
  types := wf.types
  q := rfl
  dq := rfl
  ddq := rfl
  d3q := rfl
  dqr := rfl
  ddqr := rfl
  w := rfl
  dh := wf.dh
  ee := wf.ee
  dyn := wf.dyn
  w2l := (parX_parVec "world2L0" w2lL2 : ParVec "world2L0" 6 _)
  g := (parX_parVec "gravity" [none, none, none] : ParVec "gravity" 3 _)

theorem baseUnit : @Base.BaseUnit fl B := fun k h1 h2 c hc => unit c (.inr ⟨k, h1, h2, .inl hc⟩)

theorem baseUnitMount : @Base.BaseUnit fl BM :=
  fun k h1 h2 c hc => (@Base.ExactAngles.unit fl _ exact2) c (.inr ⟨k, h1, h2, .inl hc⟩)

end Ex

variable [Fl] {B : Base} {w g : SX}

/-- C54: `M` and `C` do not depend on the base placement.  The two robots have the same links and joints; `world2L0` and `gravity`
(numeric entries `w`, `g`, symbolic entries through `ρ`, `σ`) are arbitrary. -/
theorem C54_MC (hB : B.WF) (hB' : (B.remount w g).WF) (hu : B.BaseUnit) (hu' : (B.remount w g).BaseUnit) {ρ σ : Var → ℝ}
    (hs : Base.SameRobot ρ σ) :
    SX.val σ (B.remount w g).M B.n B.n = SX.val ρ B.M B.n B.n ∧ SX.val σ (B.remount w g).C B.n B.n = SX.val ρ B.C B.n B.n :=
  ⟨Base.remount_M hB hs hu hu', Base.remount_C hB hs hu hu' hB'⟩

/-- C54: `G` depends on `world2L0` and `gravity` only through the gravity vector expressed in frame L0. -/
theorem C54_G (hB : B.WF) (hB' : (B.remount w g).WF) (hu : B.BaseUnit) (hu' : (B.remount w g).BaseUnit) {ρ σ : Var → ℝ}
    (hs : Base.SameRobot ρ σ)
    (h0 : (Spec.rot (SX.val σ ((B.remount w g).T0 0) 4 4))ᵀ *ᵥ SX.vec σ g 3 = (Spec.rot (SX.val ρ (B.T0 0) 4 4))ᵀ *ᵥ SX.vec ρ B.g 3) :
    SX.vec σ (B.remount w g).G B.n = SX.vec ρ B.G B.n := by
  rw [Base.spec_rot, Base.spec_rot] at h0
  exact Base.remount_G hB hs hu hu' hB.g.rows hB'.g.rows h0

example (ρ : Var → ℝ) (x : Fin 6 → ℝ) :
    SX.val (setV "world2L0" ρ x) (@Base.M Ex.fl Ex.BM) 3 3 = SX.val ρ (@Base.M Ex.fl Ex.B) 3 3 :=
  (@C54_MC Ex.fl _ _ _ Ex.wf Ex.wfMount Ex.baseUnit Ex.baseUnitMount ρ (setV "world2L0" ρ x)
    (fun _ h1 _ => (setV_ne h1).symm)).1

/-- Rotating the gravity vector along with the base leaves `G` unchanged. -/
example (ρ : Var → ℝ) (x : Fin 6 → ℝ) :
    let R := Spec.rot (SX.val ρ (@Base.T0 Ex.fl Ex.B 0) 4 4)
    let R' := Spec.rot (SX.val (setV "world2L0" ρ x) (@Base.T0 Ex.fl Ex.BM 0) 4 4)
    SX.vec (setV "gravity" (setV "world2L0" ρ x) (R' *ᵥ Rᵀ *ᵥ SX.vec ρ Ex.B.g 3)) (@Base.G Ex.fl Ex.BM) 3 =
      SX.vec ρ (@Base.G Ex.fl Ex.B) 3 := by
  intro R R'
  set σ := setV "gravity" (setV "world2L0" ρ x) (R' *ᵥ Rᵀ *ᵥ SX.vec ρ Ex.B.g 3) with hσ
  refine @C54_G Ex.fl _ _ _ Ex.wf Ex.wfMount Ex.baseUnit Ex.baseUnitMount ρ σ
    (fun _ h1 h2 => by rw [hσ, setV_ne h2, setV_ne h1]) ?_
  have h1 : SX.val σ (@Base.T0 Ex.fl Ex.BM 0) 4 4 = SX.val (setV "world2L0" ρ x) (@Base.T0 Ex.fl Ex.BM 0) 4 4 :=
    val_setV_of_not_mem (l := ["q", "DHtable", "world2L0"])
      (@Base.over_T0 Ex.fl _ Ex.wfMount _ (by decide) (by decide) (by decide) 0) (by decide) _ _ 4 4
  have h2 : SX.vec σ (Ex.parX "gravity" [none, none, none]) 3 = R' *ᵥ Rᵀ *ᵥ SX.vec ρ Ex.B.g 3 := by
    ext i
    fin_cases i <;> simp [Ex.parX, hσ, setV]
  have h3 : IsRot R' := by
    have := @Base.isRot_base Ex.fl _ Ex.baseUnitMount (setV "world2L0" ρ x)
    rwa [← @Base.spec_rot Ex.fl] at this
  change (Spec.rot (SX.val σ (@Base.T0 Ex.fl Ex.BM 0) 4 4))ᵀ *ᵥ _ = _
  rw [h1, h2, Matrix.mulVec_mulVec, h3.orth, Matrix.one_mulVec]

end

end Thunder
