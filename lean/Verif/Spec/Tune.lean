import Verif.Spec.AsRead
import Verif.Spec.Inertia

/-!
# Changing the symbolic parameters of an object of the generated class

README, "Symbolic selectivity of parameters" and the example program: after a file has been loaded, the setters `set_par_…` change the symbolic
parameters and nothing else.
-/

namespace Thunder.Spec

open Thunder.Wrap (VarField Call)

noncomputable section

/-- The vectors of parameters of a file. -/
inductive ParList
  | DH | W2L | EE | G | DYN | Dl | K | D | Dm | Mm
  deriving DecidableEq

namespace ParList

/-- Number of entries in the file. -/
def size (c : Conf) : ParList → ℕ
  | DH => 4 * c.n | W2L => 6 | EE => 6 | G => 3 | DYN => 10 * c.n | Dl => c.n * c.dlO | K => c.ne * c.kO | D => c.ne * c.dO | Dm => c.ne * c.dmO
  | Mm => c.ne

/-- Which entries are symbolic. -/
def flag (c : Conf) : ParList → ℕ → ℤ
  | DH => c.fdh | W2L => c.fw2l | EE => c.fee | G => c.fg | DYN => c.fdyn | Dl => c.fdl | K => c.fK | D => c.fD | Dm => c.fDm | Mm => c.fMm

/-- The values. -/
def val (c : Conf) : ParList → ℕ → ℝ
  | DH => c.dh | W2L => c.w2l | EE => c.ee | G => c.g | DYN => c.dyn | Dl => c.dl | K => c.K | D => c.D | Dm => c.Dm | Mm => c.Mm

/-- The kinematic parameters and gravity, of which the class keeps the symbolic ones only. -/
def kinematic : ParList → Bool
  | DH | W2L | EE | G => true
  | _ => false

/-- How many numbers the setter of an object into which a file has been loaded expects: one for each symbolic entry of the kinematic parameters and of
gravity; one for each entry of the others. -/
def expects (c : Conf) (p : ParList) : ℕ := if p.kinematic then (symbolIdx (p.size c) (p.flag c)).length else p.size c

end ParList

/-- Numeric entries are those of `x`; the symbolic ones are, in their order, the numbers `v`. -/
def placed (f : ℕ → ℤ) (x v : ℕ → ℝ) (i : ℕ) : ℝ := if f i = 0 then x i else v (before f i)

/-- The mechanism in which the symbolic entries of one vector of parameters are, in their order, the numbers `v`. -/
def retune (c : Conf) (v : ℕ → ℝ) : ParList → Conf
  | .DH => { c with dh := placed c.fdh c.dh v }
  | .W2L => { c with w2l := placed c.fw2l c.w2l v }
  | .EE => { c with ee := placed c.fee c.ee v }
  | .G => { c with g := placed c.fg c.g v }
  | .DYN => { c with dyn := placed c.fdyn c.dyn v }
  | .Dl => { c with dl := placed c.fdl c.dl v }
  | .K => { c with K := placed c.fK c.K v }
  | .D => { c with D := placed c.fD c.D v }
  | .Dm => { c with Dm := placed c.fDm c.Dm v }
  | .Mm => { c with Mm := placed c.fMm c.Mm v }

/-- What the user does with an object: set a variable of motion, load the file, set a vector of parameters, or set the linear parameters of bodies with
the inertial parameters `d`. -/
inductive Tuning
  | var (f : VarField) (v : List Num)
  | load (upd : Bool)
  | par (p : ParList) (v : ℕ → ℝ)
  | lin (d : ℕ → ℝ)

/-- The numbers have the right number; the bodies have mass. -/
def Tuning.Fits (c : Conf) : Tuning → Prop
  | .var f v => v.length = components c f
  | .lin d => ∀ i < c.n, mass d i ≠ 0
  | _ => True

/-- The setter for a vector of parameters. -/
def setter (v : List Num) : ParList → Call
  | .DH => .setDH 1 v
  | .W2L => .setPar .W2L v
  | .EE => .setPar .EE v
  | .G => .setPar .G v
  | .DYN => .setDYN v true
  | .Dl => .setPar .Dl v
  | .K => .setPar .K v
  | .D => .setPar .D v
  | .Dm => .setPar .Dm v
  | .Mm => .setPar .Mm v

/-- The call. -/
def Tuning.call (y : Yaml) (c : Conf) : Tuning → Call
  | .var f v => .setVar f v
  | .load u => .loadConf (some y) u
  | .par p v => setter (nums (p.expects c) v) p
  | .lin d => .setREG (nums (10 * c.n) (reg d)) true

/-- The mechanism after the call, if it was `c` before; `c₀` is the content of the file. -/
def Tuning.effect (c₀ : Conf) (c : Conf) : Tuning → Conf
  | .var _ _ => c
  | .load _ => asRead c₀
  | .par p v => retune c v p
  | .lin d => retune c d .DYN

/-- The values a variable has after these calls on a new object: those set last, otherwise zeros. -/
def lastVar (c : Conf) (f : VarField) (l : List Tuning) : List Num :=
  l.foldl (fun v t => match t with | .var f' v' => if f' = f then v' else v | _ => v) (List.replicate (components c f) (some 0))

end

end Thunder.Spec
