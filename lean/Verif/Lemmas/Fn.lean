import Verif.Lemmas.Start

/-!
# The functions of the library

A table of the functions registered by the `compute_*` functions.
-/

open scoped Classical

namespace Thunder

noncomputable section

open Spec

/-- Names of functions without the number at the end. -/
inductive Stem
  | T | T0 | T0ee | J | Jee | JeeDot | JeeDdot | JeePinv
  | Jcm | M | C | Cstd | G | Mdot | Mddot | Cdot | Cddot | Gdot | Gddot
  | dl | Dl | k | K | d | D | dm | Dm | Mm
  | Yr | regM | regC | regG | regJdq | regJTw | regDl | regK | regD | regDm | regMm
  deriving DecidableEq

namespace Stem

def str : Stem → String
  | T => "T_" | T0 => "T_0_" | T0ee => "T_0_ee" | J => "J_" | Jee => "J_ee" | JeeDot => "J_ee_dot" | JeeDdot => "J_ee_ddot"
  | JeePinv => "J_ee_pinv" | Jcm => "J_cm_" | M => "M" | C => "C" | Cstd => "C_std" | G => "G" | Mdot => "M_dot" | Mddot => "M_ddot"
  | Cdot => "C_dot" | Cddot => "C_ddot" | Gdot => "G_dot" | Gddot => "G_ddot" | dl => "dl" | Dl => "Dl" | k => "k" | K => "K" | d => "d"
  | D => "D" | dm => "dm" | Dm => "Dm" | Mm => "Mm" | Yr => "Yr" | regM => "reg_M" | regC => "reg_C" | regG => "reg_G" | regJdq => "reg_Jdq"
  | regJTw => "reg_JTw" | regDl => "reg_dl" | regK => "reg_k" | regD => "reg_d" | regDm => "reg_dm" | regMm => "reg_Mm"

def all : List Stem :=
  [T, T0, T0ee, J, Jee, JeeDot, JeeDdot, JeePinv, Jcm, M, C, Cstd, G, Mdot, Mddot, Cdot, Cddot, Gdot, Gddot, dl, Dl, k, K, d, D,
    dm, Dm, Mm, Yr, regM, regC, regG, regJdq, regJTw, regDl, regK, regD, regDm, regMm]

theorem str_inj {a b : Stem} (h : a.str = b.str) : a = b := by
  have key : ∀ s : Stem, all.find? (fun a => a.str == s.str) = some s := by intro s; cases s <;> decide
  have := key a
  rw [h, key b] at this
  exact (Option.some.inj this).symm

theorem nodigit (s : Stem) : (s.str.toList.reverse.head?.all fun x => !x.isDigit) = true := by cases s <;> decide

theorem ne_key (s : Stem) (k : Key) : s.str ≠ k.str := by
  have key : ∀ s : Stem, Key.all.all (fun k => s.str != k.str) = true := by intro s; cases s <;> decide
  simpa using List.all_eq_true.1 (key s) k k.mem_all

theorem ne_w2l (s : Stem) : s.str ≠ "par_world2L" := by cases s <;> decide

end Stem

/-- The functions of the library; the argument is the number at the end of the name (`K i` is called `K` followed by `2i+1`). -/
inductive Fn
  | T (i : ℕ) | T0 (i : ℕ) | T0ee | J (i : ℕ) | Jee | JeeDot | JeeDdot | JeePinv
  | Jcm (i : ℕ) | M | C | Cstd | G | Mdot | Mddot | Cdot | Cddot | Gdot | Gddot
  | dl | Dl (i : ℕ) | k | K (i : ℕ) | d | D (i : ℕ) | dm | Dm (i : ℕ) | Mm
  | Yr | regM | regC | regG | regJdq | regJTw | regDl | regK | regD | regDm | regMm

namespace Fn

def stem : Fn → Stem
  | T _ => .T | T0 _ => .T0 | T0ee => .T0ee | J _ => .J | Jee => .Jee | JeeDot => .JeeDot | JeeDdot => .JeeDdot | JeePinv => .JeePinv
  | Jcm _ => .Jcm | M => .M | C => .C | Cstd => .Cstd | G => .G | Mdot => .Mdot | Mddot => .Mddot | Cdot => .Cdot | Cddot => .Cddot
  | Gdot => .Gdot | Gddot => .Gddot | dl => .dl | Dl _ => .Dl | k => .k | K _ => .K | d => .d | D _ => .D | dm => .dm | Dm _ => .Dm | Mm => .Mm
  | Yr => .Yr | regM => .regM | regC => .regC | regG => .regG | regJdq => .regJdq | regJTw => .regJTw | regDl => .regDl | regK => .regK
  | regD => .regD | regDm => .regDm | regMm => .regMm

def ofStem (i : ℕ) : Stem → Fn
  | .T => T i | .T0 => T0 i | .T0ee => T0ee | .J => J i | .Jee => Jee | .JeeDot => JeeDot | .JeeDdot => JeeDdot | .JeePinv => JeePinv
  | .Jcm => Jcm i | .M => M | .C => C | .Cstd => Cstd | .G => G | .Mdot => Mdot | .Mddot => Mddot | .Cdot => Cdot | .Cddot => Cddot
  | .Gdot => Gdot | .Gddot => Gddot | .dl => dl | .Dl => Dl i | .k => k | .K => K (i / 2) | .d => d | .D => D i | .dm => dm | .Dm => Dm i
  | .Mm => Mm | .Yr => Yr | .regM => regM | .regC => regC | .regG => regG | .regJdq => regJdq | .regJTw => regJTw | .regDl => regDl
  | .regK => regK | .regD => regD | .regDm => regDm | .regMm => regMm

def num : Fn → Option ℕ
  | T i | T0 i | J i | Jcm i | Dl i | D i | Dm i => some i
  | K i => some (2 * i + 1)
  | _ => none

def name (f : Fn) : String := f.stem.str ++ match f.num with | none => "" | some i => toString i

theorem ofStem_stem (f : Fn) : ofStem (f.num.getD 0) f.stem = f := by
  cases f <;> try rfl
  rename_i i
  have : (2 * i + 1) / 2 = i := by omega
  simp [ofStem, num, stem, this]

/-- A string followed by digits. -/
theorem strip (s : String) (n : Option ℕ) (hs : (s.toList.reverse.head?.all fun x => !x.isDigit) = true) :
    ((s ++ match n with | none => "" | some i => toString i).toList.reverse.dropWhile Char.isDigit) = s.toList.reverse := by
  rw [String.toList_append, List.reverse_append, List.dropWhile_append_of_pos]
  · cases h : s.toList.reverse with
    | nil => rfl
    | cons a t =>
      rw [h] at hs
      rw [List.dropWhile_cons_of_neg]
      simpa using hs
  · intro a ha
    rw [List.mem_reverse] at ha
    cases n with
    | none => simp at ha
    | some i =>
      simp only [Nat.toString_eq_repr, Nat.repr_eq_ofList_toDigits, String.toList_ofList] at ha
      exact Nat.isDigit_of_mem_toDigits (by omega) (by omega) ha

theorem eq_of_stem {s s' : String} {n n' : Option ℕ} (hs : (s.toList.reverse.head?.all fun x => !x.isDigit) = true)
    (hs' : (s'.toList.reverse.head?.all fun x => !x.isDigit) = true)
    (h : (s ++ match n with | none => "" | some i => toString i) = s' ++ match n' with | none => "" | some i => toString i) : s = s' ∧ n = n' := by
  have h1 : s = s' := by
    have := strip s n hs
    rw [h, strip s' n' hs'] at this
    exact (String.toList_inj.1 (List.reverse_injective this)).symm
  refine ⟨h1, ?_⟩
  subst h1
  have h2 := String.append_right_inj s |>.1 h
  have hne : ∀ i : ℕ, toString i ≠ "" := fun i e => by
    have := Nat.length_repr_pos (n := i)
    rw [← Nat.toString_eq_repr, e] at this
    simp at this
  cases n <;> cases n'
  · rfl
  · exact absurd h2.symm (hne _)
  · exact absurd h2 (hne _)
  · simp only [Nat.toString_eq_repr] at h2
    rw [Nat.repr_injective h2]

theorem name_inj {f g : Fn} (h : f.name = g.name) : f = g := by
  obtain ⟨h1, h2⟩ := eq_of_stem f.stem.nodigit g.stem.nodigit h
  rw [← ofStem_stem f, Stem.str_inj h1, h2, ofStem_stem]

/-- No function is called like a vector. -/
theorem name_ne (f : Fn) (k : Key) : f.name ≠ k.str := by
  intro h
  by_cases e : k = .W2L
  · subst e
    exact f.stem.ne_w2l (eq_of_stem (n' := some 0) f.stem.nodigit (by decide) (h.trans (by decide))).1
  · refine f.stem.ne_key k (eq_of_stem (n' := none) f.stem.nodigit ?_ (h.trans (by simp))).1
    revert e
    cases k <;> decide

/-! ## The table -/

end Fn

/-- The vector as the `compute_*` functions find it. -/
def kmod (c : Conf) (k : Key) : SX := if k.here c then k.mat c else SX.zeros 0 0

/-- The vectors of a robot with configuration `c`. -/
def base (c : Conf) : Base where
  n := c.n
  types := c.types
  q := kmod c .q
  dq := kmod c .dq
  ddq := kmod c .ddq
  d3q := kmod c .d3q
  dqr := kmod c .dqr
  ddqr := kmod c .ddqr
  w := kmod c .w
  x := kmod c .x
  dx := kmod c .dx
  ddx := kmod c .ddx
  dh := kmod c .DH
  w2l := kmod c .W2L
  ee := kmod c .EE
  g := kmod c .grav
  dyn := kmod c .DYN
  dl := kmod c .Dl
  parK := kmod c .K
  parD := kmod c .D
  parDm := kmod c .Dm
  parMm := kmod c .Mm

theorem baseOf_run {c : Conf} {r : Robot} {L : Set Robot.Reg} (h : Robot.Run c r L) : Robot.baseOf r = base c := by
  have hm : ∀ k : Key, r.mod k.str = kmod c k := by
    intro k
    unfold Robot.mod SMap.get kmod
    rw [h.model]
    split_ifs <;> rfl
  unfold Robot.baseOf base
  rw [h.n, h.types, ← hm, ← hm, ← hm, ← hm, ← hm, ← hm, ← hm, ← hm, ← hm, ← hm, ← hm, ← hm, ← hm, ← hm, ← hm, ← hm, ← hm, ← hm, ← hm, ← hm]
  rfl

namespace Fn

variable [Fl]

/-- The expression. -/
def expr (B : Base) (c : Conf) : Fn → SX
  | T i => B.Ti i
  | T0 i => if i = B.n + 1 then B.T0ee else B.T0 i
  | T0ee => B.T0ee
  | J i => B.J (i - 1)
  | Jee => B.Jee
  | JeeDot => B.JeeDot
  | JeeDdot => B.JeeDdot
  | JeePinv => B.JeePinv
  | Jcm i => B.Jcm (i - 1)
  | M => B.M
  | C => B.C
  | Cstd => B.Cstd
  | G => B.G
  | Mdot => B.Mdot
  | Mddot => B.Mddot
  | Cdot => B.Cdot
  | Cddot => B.Cddot
  | Gdot => B.Gdot
  | Gddot => B.Gddot
  | dl => B.dlFun c.dlO
  | Dl i => diagPar B.dl B.n c.dlO (i - 1)
  | k => B.kFun c.ne c.kO
  | K i => diagPar B.parK c.ne c.kO i
  | d => B.dFun c.ne c.dO
  | D i => diagPar B.parD c.ne c.dO (i - 1)
  | dm => B.dmFun c.ne c.dmO
  | Dm i => diagPar B.parDm c.ne c.dmO (i - 1)
  | Mm => B.MmFun c.ne
  | Yr => B.Yr
  | regM => B.regM
  | regC => B.regC
  | regG => B.regG
  | regJdq => B.regJdq (Key.DH.flags c) (Key.W2L.flags c) (Key.EE.flags c)
  | regJTw => B.regJTw (Key.DH.flags c) (Key.W2L.flags c) (Key.EE.flags c)
  | regDl => B.regDl c.dlO (Key.Dl.flags c)
  | regK => B.regK c.ne c.kO (Key.K.flags c)
  | regD => B.regD c.ne c.dO (Key.D.flags c)
  | regDm => B.regDm c.ne c.dmO (Key.Dm.flags c)
  | regMm => B.regMm c.ne (Key.Mm.flags c)

/-- The vectors that are always inputs. -/
def sure : Fn → List Key
  | T i | T0 i => if i = 0 then [] else [.q]
  | T0ee | J _ | Jee | JeePinv | Jcm _ | M | G | regG => [.q]
  | JeeDot | C | Cstd | Mdot | Gdot | regJdq => [.q, .dq]
  | JeeDdot | Mddot | Cdot | Gddot => [.q, .dq, .ddq]
  | Cddot => [.q, .dq, .ddq, .d3q]
  | dl | regDl => [.dq]
  | k | regK => [.q, .x]
  | d | regD => [.dq, .dx]
  | dm | regDm => [.dx]
  | regMm => [.ddx]
  | Dl _ | K _ | D _ | Dm _ | Mm => []
  | Yr => [.q, .dq, .dqr, .ddqr]
  | regM => [.q, .ddqr]
  | regC => [.q, .dq, .dqr]
  | regJTw => [.q, .w]

/-- The vectors that are inputs when some of their entries are symbolic. -/
def pos (n : ℕ) : Fn → List Key
  | T i => if i = 0 then [.W2L] else [.DH]
  | T0 i => if i = 0 then [.W2L] else if i = n + 1 then [.DH, .W2L, .EE] else [.DH, .W2L]
  | J i => if i = n + 1 then [.DH, .W2L, .EE] else [.DH, .W2L]
  | T0ee | Jee | JeeDot | JeeDdot | JeePinv | regJdq | regJTw => [.DH, .W2L, .EE]
  | Jcm _ | M | C | Cstd | Mdot | Mddot | Cdot | Cddot => [.DH, .W2L, .DYN]
  | G | Gdot | Gddot => [.DH, .W2L, .grav, .DYN]
  | dl | Dl _ => [.Dl]
  | k | K _ => [.K]
  | d | D _ => [.D]
  | dm | Dm _ => [.Dm]
  | Mm => [.Mm]
  | Yr | regG => [.DH, .W2L, .grav]
  | regM | regC => [.DH, .W2L]
  | regDl | regK | regD | regDm | regMm => []

def descr (n : ℕ) : Fn → String
  | T i => if i = 0 then "relative transformation from frame base to frame 1"
    else "relative transformation from frame" ++ toString (i - 1) ++ "to frame " ++ toString i
  | T0 i => if i = 0 then "absolute transformation from frame base to frame 1"
    else if i = n + 1 then "absolute transformation from frame base to end_effector" else "absolute transformation from frame base to frame " ++ toString i
  | T0ee => "absolute transformation from frame 0 to end_effector"
  | J i => "Jacobian of frame " ++ toString i
  | Jee => "Jacobian of the end-effector"
  | JeeDot => "Time derivative of jacobian matrix"
  | JeeDdot => "Time second derivative of jacobian matrix"
  | JeePinv => "Pseudo-Inverse of jacobian matrix"
  | Jcm i => "Jacobian of center of mass of link " ++ toString i
  | M => "Manipulator mass matrix"
  | C => "Manipulator Coriolis matrix"
  | Cstd => "Classic formulation of the manipulator Coriolis matrix"
  | G => "Manipulator gravity terms"
  | Mdot => "Time derivative of the mass matrix"
  | Mddot => "Second time derivative of the mass matrix"
  | Cdot => "Time derivative of the Coriolis matrix"
  | Cddot => "Second time derivative of the Coriolis matrix"
  | Gdot => "Time derivative of the gravity vector"
  | Gddot => "Second time derivative of the gravity vector"
  | dl => "Manipulator link friction"
  | Dl i => "SEA manipulator link damping, order " ++ toString i
  | k => "SEA manipulator elastic coupling"
  | K i => "SEA manipulator elastic coupling, order " ++ toString (2 * i + 1)
  | d => "SEA manipulator dampind coupling"
  | D i => "SEA manipulator damping coupling, order " ++ toString i
  | dm => "SEA manipulator motor damping"
  | Dm i => "SEA manipulator motor damping, order " ++ toString i
  | Mm => "SEA manipulator motor inertia"
  | Yr => "Manipulator regressor matrix"
  | regM => "Regressor matrix of term M*ddqr"
  | regC => "Regressor matrix of term C*dqr"
  | regG => "Regressor matrix of term G"
  | regJdq => "Regressor matrix of the quantity J*dq"
  | regJTw => "Regressor matrix of the quantity J^T*w"
  | regDl => "Regressor matrix of the link friction"
  | regK => "Regressor matrix of the coupling stiffness"
  | regD => "Regressor matrix of the coupling damping"
  | regDm => "Regressor matrix of the motor friction"
  | regMm => "Regressor matrix of the motor friction"

omit [Fl] in
/-- Is the function registered? -/
def Valid (c : Conf) : Fn → Prop
  | T i => i ≤ c.n
  | T0 i => i ≤ c.n + 1
  | J i => 1 ≤ i ∧ i ≤ c.n + 1
  | Jcm i => 1 ≤ i ∧ i ≤ c.n
  | dl => 0 < c.dlO
  | Dl i => 1 ≤ i ∧ i ≤ c.dlO
  | k => c.elastic = true ∧ 0 < c.kO
  | K i => c.elastic = true ∧ i < c.kO
  | d => c.elastic = true ∧ 0 < c.dO
  | D i => c.elastic = true ∧ 1 ≤ i ∧ i ≤ c.dO
  | dm => c.elastic = true ∧ 0 < c.dmO
  | Dm i => c.elastic = true ∧ 1 ≤ i ∧ i ≤ c.dmO
  | Mm => c.elastic = true
  | regJdq | regJTw => Key.DH.vars c ++ Key.W2L.vars c ++ Key.EE.vars c ≠ []
  | regDl => Key.Dl.vars c ≠ []
  | regK => Key.K.vars c ≠ []
  | regD => Key.D.vars c ≠ []
  | regDm => Key.Dm.vars c ≠ []
  | regMm => Key.Mm.vars c ≠ []
  | _ => True

/-- The registration. -/
def reg (c : Conf) (f : Fn) : Robot.Reg := ⟨f.name, f.expr (base c) c, f.sure.map Key.str, (f.pos c.n).map Key.str, f.descr c.n⟩

/-- The functions of the library of a robot with configuration `c`. -/
def lib (c : Conf) : Set Robot.Reg := {g | ∃ f : Fn, f.Valid c ∧ g = f.reg c}

theorem uniq_lib (c : Conf) : Robot.Uniq (lib c) := by
  rintro g ⟨f, _, rfl⟩ g' ⟨f', _, rfl⟩ h
  rw [name_inj (f := f) (g := f') h]

end Fn

end

end Thunder
