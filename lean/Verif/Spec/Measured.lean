import Verif.Spec.Rounding

/-!
# Inputs with errors
-/

namespace Thunder.Spec

noncomputable section

/-- The variables of motion `s'` and the symbolic parameters of `c'` differ from `s` and those of `c` by at most `δ`. -/
structure Measured (δ : ℝ) (c c' : Conf) (s : State c) (s' : State c') : Prop where
  q : ∀ i (h : i < c.n) (h' : i < c'.n), |s'.q ⟨i, h'⟩ - s.q ⟨i, h⟩| ≤ δ
  dq : ∀ i (h : i < c.n) (h' : i < c'.n), |s'.dq ⟨i, h'⟩ - s.dq ⟨i, h⟩| ≤ δ
  ddq : ∀ i (h : i < c.n) (h' : i < c'.n), |s'.ddq ⟨i, h'⟩ - s.ddq ⟨i, h⟩| ≤ δ
  d3q : ∀ i (h : i < c.n) (h' : i < c'.n), |s'.d3q ⟨i, h'⟩ - s.d3q ⟨i, h⟩| ≤ δ
  dqr : ∀ i (h : i < c.n) (h' : i < c'.n), |s'.dqr ⟨i, h'⟩ - s.dqr ⟨i, h⟩| ≤ δ
  ddqr : ∀ i (h : i < c.n) (h' : i < c'.n), |s'.ddqr ⟨i, h'⟩ - s.ddqr ⟨i, h⟩| ≤ δ
  w : ∀ i, |s'.w i - s.w i| ≤ δ
  x : ∀ i (h : i < c.ne) (h' : i < c'.ne), |s'.x ⟨i, h'⟩ - s.x ⟨i, h⟩| ≤ δ
  dx : ∀ i (h : i < c.ne) (h' : i < c'.ne), |s'.dx ⟨i, h'⟩ - s.dx ⟨i, h⟩| ≤ δ
  ddx : ∀ i (h : i < c.ne) (h' : i < c'.ne), |s'.ddx ⟨i, h'⟩ - s.ddx ⟨i, h⟩| ≤ δ
  dh : ∀ i < 4 * c.n, c.fdh i ≠ 0 → |c'.dh i - c.dh i| ≤ δ
  w2l : ∀ i < 6, c.fw2l i ≠ 0 → |c'.w2l i - c.w2l i| ≤ δ
  ee : ∀ i < 6, c.fee i ≠ 0 → |c'.ee i - c.ee i| ≤ δ
  g : ∀ i < 3, c.fg i ≠ 0 → |c'.g i - c.g i| ≤ δ
  dyn : ∀ i < 10 * c.n, c.fdyn i ≠ 0 → |c'.dyn i - c.dyn i| ≤ δ
  dl : ∀ i < c.n * c.dlO, c.fdl i ≠ 0 → |c'.dl i - c.dl i| ≤ δ
  K : ∀ i < c.ne * c.kO, c.fK i ≠ 0 → |c'.K i - c.K i| ≤ δ
  D : ∀ i < c.ne * c.dO, c.fD i ≠ 0 → |c'.D i - c.D i| ≤ δ
  Dm : ∀ i < c.ne * c.dmO, c.fDm i ≠ 0 → |c'.Dm i - c.Dm i| ≤ δ
  Mm : ∀ i < c.ne, c.fMm i ≠ 0 → |c'.Mm i - c.Mm i| ≤ δ

/-- The state `s` with the positions and velocities measured, `s'`. -/
def sensed {c c' : Conf} (hn : c.n = c'.n) (s : State c) (s' : State c') : State c :=
  { s with q := fun i => s'.q (i.cast hn), dq := fun i => s'.dq (i.cast hn) }

end

end Thunder.Spec
