import Verif.Spec.System

/-!
# The parameters that the generated class uses after a file has been loaded
-/

namespace Thunder.Spec

noncomputable section

/-- The number of symbolic entries before entry `i`. -/
def before (f : ℕ → ℤ) (i : ℕ) : ℕ := ((List.range i).filter fun j => f j ≠ 0).length

/-- Numeric entries keep their values; the symbolic ones have, in their order, the values at the front of the vector. -/
def fromFront (f : ℕ → ℤ) (x : ℕ → ℝ) (i : ℕ) : ℝ := if f i = 0 then x i else x (before f i)

/-- The file `c` with the parameters of links and actuators that an object of the generated class uses after loading it. -/
def asRead (c : Conf) : Conf :=
  { c with
    dyn := fromFront c.fdyn c.dyn
    dl := fromFront c.fdl c.dl
    K := fromFront c.fK c.K
    D := fromFront c.fD c.D
    Dm := fromFront c.fDm c.Dm
    Mm := fromFront c.fMm c.Mm }

/-- `o` is a new object of the class generated by way of `g` on which the file `y` has been loaded and variables of motion have been set, in any order,
until they are `s`. -/
def LoadedAt (y : Yaml) (c : Conf) (s : State c) (g : Robot) (o : Wrap.Obj) : Prop :=
  ∃ steps : List Step, (∀ st ∈ steps, st.Fits c) ∧ (∃ u, .load u ∈ steps) ∧
    Wrap.runAll (Wrap.cfgOf g) (steps.map (Step.onClass y)) (Wrap.init (Wrap.cfgOf g)) = some o ∧ Moves c s o

/-- `c'` has the joints, the orders and the selection of symbolic parameters of `c`; the numbers may be others. -/
structure SameForm (c c' : Conf) : Prop where
  types : c'.types = c.types
  elastic : c'.elastic = c.elastic
  kO : c'.kO = c.kO
  dO : c'.dO = c.dO
  dmO : c'.dmO = c.dmO
  dlO : c'.dlO = c.dlO
  fdh : c'.fdh = c.fdh
  fw2l : c'.fw2l = c.fw2l
  fee : c'.fee = c.fee
  fg : c'.fg = c.fg
  fdyn : c'.fdyn = c.fdyn
  fdl : c'.fdl = c.fdl
  fK : c'.fK = c.fK
  fD : c'.fD = c.fD
  fDm : c'.fDm = c.fDm
  fMm : c'.fMm = c.fMm

/-- Numeric entries of `a`, symbolic ones of `b`. -/
def choose (f : ℕ → ℤ) (a b : ℕ → ℝ) (i : ℕ) : ℝ := if f i = 0 then a i else b i

/-- The parameters used by an object of the class generated from `c₀` after the file `c` of the same form has been loaded: the numeric ones are those
of `c₀`, the symbolic ones of `c` (links and actuators: from the front of the vectors of `c`). -/
def over (c₀ c : Conf) : Conf :=
  { c₀ with
    dh := choose c₀.fdh c₀.dh c.dh
    w2l := choose c₀.fw2l c₀.w2l c.w2l
    ee := choose c₀.fee c₀.ee c.ee
    g := choose c₀.fg c₀.g c.g
    dyn := choose c₀.fdyn c₀.dyn (fromFront c₀.fdyn c.dyn)
    dl := choose c₀.fdl c₀.dl (fromFront c₀.fdl c.dl)
    K := choose c₀.fK c₀.K (fromFront c₀.fK c.K)
    D := choose c₀.fD c₀.D (fromFront c₀.fD c.D)
    Dm := choose c₀.fDm c₀.Dm (fromFront c₀.fDm c.Dm)
    Mm := choose c₀.fMm c₀.Mm (fromFront c₀.fMm c.Mm) }

/-- The file `c` with all symbolic parameters zero. -/
def cleared (c : Conf) : Conf :=
  { c with
    dh := fun i => if c.fdh i = 0 then c.dh i else 0
    w2l := fun i => if c.fw2l i = 0 then c.w2l i else 0
    ee := fun i => if c.fee i = 0 then c.ee i else 0
    g := fun i => if c.fg i = 0 then c.g i else 0
    dyn := fun i => if c.fdyn i = 0 then c.dyn i else 0
    dl := fun i => if c.fdl i = 0 then c.dl i else 0
    K := fun i => if c.fK i = 0 then c.K i else 0
    D := fun i => if c.fD i = 0 then c.D i else 0
    Dm := fun i => if c.fDm i = 0 then c.Dm i else 0
    Mm := fun i => if c.fMm i = 0 then c.Mm i else 0 }

end

end Thunder.Spec
