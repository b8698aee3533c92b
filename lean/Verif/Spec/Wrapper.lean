import Verif.Spec.Inertia
import Verif.Model.Wrapper

/-!
# What the wrapper class should guarantee

Stated on the member vectors only.
-/

namespace Thunder.Spec

open Thunder.Wrap

/-- Ten consecutive entries are the given numbers. -/
def Block (v : List Num) (i : ℕ) (p : ℕ → ℝ) : Prop := ∀ k < 10, v[10 * i + k]? = some (some (p k))

/-- Some of ten consecutive entries is not a number. -/
def NaNBlock (v : List Num) (i : ℕ) : Prop := ∃ k < 10, v[10 * i + k]? = some none

/-- `par_REG` is the REG image of `par_DYN`: for every link the ten `par_DYN` entries are numbers and the `par_REG` entries are mass, first
moments and inertia about the link origin; or the link has an undetermined entry in both. -/
def Consistent (n : ℕ) (dyn reg : List Num) : Prop :=
  dyn.length = 10 * n ∧ reg.length = 10 * n ∧ ∀ i < n,
    (∃ p : ℕ → ℝ, Block dyn i p ∧
      Block reg i (linPar (p 0) ![p 1, p 2, p 3] !![p 4, p 5, p 6; p 5, p 7, p 8; p 6, p 8, p 9])) ∨
    (NaNBlock dyn i ∧ NaNBlock reg i)

/-- Number of entries the generated code reads from a member: one for each parameter or variable marked symbolic. -/
def reads (flags : List ℤ) : ℕ := (flags.filter (· ≠ 0)).length

/-! ## Setters -/

/-- The member `set_q` … `set_w` is named after. -/
def varMember : VarField → Field
  | .q => .q | .dq => .dq | .ddq => .ddq | .d3q => .d3q | .d4q => .d4q | .dqr => .dqr | .ddqr => .ddqr
  | .x => .x | .dx => .dx | .ddx => .ddx | .ddxr => .ddxr | .w => .w
/-- The member `set_par_K` … is named after. -/
def parMember : ParField → Field
  | .K => .K | .D => .D | .Dm => .Dm | .Mm => .Mm | .Dl => .Dl | .G => .G | .W2L => .W2L | .EE => .EE

/-- The members a setter should write, with their new values. -/
def stores : Call → List (Field × List Num)
  | .setVar f v => [(varMember f, v)]
  | .setPar f v => [(parMember f, v)]
  | .setArguments a b d e => [(.q, a), (.dq, b), (.dqr, d), (.ddqr, e)]
  | .setDH _ v => [(.DH, v)]
  | .setDYN v _ => [(.DYN, v)]
  | .setREG v _ => [(.REG, v)]
  | _ => []

/-- The member recomputed by a setter with update. -/
def recomputes : Call → List Field
  | .setDYN _ true => [.REG]
  | .setREG _ true => [.DYN]
  | _ => []

/-- Some vector given to a setter does not have the size of its member. -/
def WrongSize (s : Obj) (k : Call) : Prop := ∃ p ∈ stores k, p.2.length ≠ (s.vec p.1).length

/-! ## Configuration files with a given symbolic pattern -/

/-- The flags found in a section: the entry `symb` if there is one, otherwise all zero. -/
def SymbIs (nd : Yaml) (flags : List ℤ) : Prop :=
  ∀ sy, nd.getM "symb" = some sy → if sy.isDef then ∀ v, sy.asVec Yaml.asI = some v → v = flags else flags = List.replicate flags.length 0

/-- A vector of numbers found under a key has at least `k` entries. -/
def VecMin (nd : Yaml) (key : String) (k : ℕ) : Prop := ∀ v, (nd.getM key).bind (Yaml.asVec Yaml.asD) = some v → k ≤ v.length

/-- As `VecMin`, below an element of a list of links or joints. -/
def VecMinC (nd : Yaml) (key : String) (k : ℕ) : Prop := ∀ v, (nd.getC key).bind (Yaml.asVec Yaml.asD) = some v → k ≤ v.length

/-- A file for a robot of the given size and symbolic pattern.  Every condition is about what can be read, so that files with missing or
unreadable parts (on which `load_conf` stops with an exception) are included. -/
structure FileFor (c : Cfg) (pat : Field → List ℤ) (y : Yaml) : Prop where
  kin : ∀ nd, y.getM "kinematics" = some nd → nd.isDef = true →
    SymbIs nd (pat .DH) ∧ ∀ v, (nd.getM "DH").bind (Yaml.asVec Yaml.asD) = some v → v.length = c.size .DH
  base : ∀ nd, y.getM "Base_to_L0" = some nd → nd.isDef = true → SymbIs nd (pat .W2L) ∧ VecMin nd "tr" 3 ∧ VecMin nd "ypr" 3
  ee : ∀ nd, y.getM "Ln_to_EE" = some nd → nd.isDef = true → SymbIs nd (pat .EE) ∧ VecMin nd "tr" 3 ∧ VecMin nd "ypr" 3
  grav : ∀ nd, y.getM "gravity" = some nd → nd.isDef = true → SymbIs nd (pat .G) ∧ VecMin nd "value" 3
  dyn : ∀ nd, y.getM "dynamics" = some nd → nd.isDef = true → ∀ e ∈ nd.items, ∀ fr, e.2.getC "friction" = some fr → VecMinC fr "Dl" c.dlOrd
  ela : ∀ nd js, y.getM "elastic" = some nd → nd.isDef = true → nd.getM "joints" = some js → ∀ e ∈ js.items,
    VecMinC e.2 "K" c.kOrd ∧ VecMinC e.2 "D" c.dOrd ∧ VecMinC e.2 "Dm" c.dmOrd

end Thunder.Spec
