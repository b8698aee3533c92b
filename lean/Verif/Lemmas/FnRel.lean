import Verif.Lemmas.Fn

/-!
# The expressions of the library: construction, size, symbols, agreement
-/

open scoped Classical

namespace Thunder

noncomputable section

open Spec SX

/-- The field of `B` for a vector. -/
def Base.at (B : Base) : Key → SX
  | .q => B.q | .dq => B.dq | .ddq => B.ddq | .d3q => B.d3q | .dqr => B.dqr | .ddqr => B.ddqr | .w => B.w | .x => B.x | .dx => B.dx | .ddx => B.ddx
  | .DH => B.dh | .W2L => B.w2l | .EE => B.ee | .grav => B.g | .DYN => B.dyn | .Dl => B.dl | .K => B.parK | .D => B.parD | .Dm => B.parDm
  | .Mm => B.parMm | .d4q => SX.zeros 0 0 | .ddxr => SX.zeros 0 0

variable {P : Var → Option ℝ} {S : Set Var} {B B' : Base} {c : Conf}

theorem varIn_of_rel {name : String} {n : ℕ} {A' : SX} (h : Rel P S n 1 (SX.sym name n) A') : VarIn S name n := fun i hi => by
  have := h.over i 0
  simp only [SX.sym, hi, and_self, if_true] at this
  exact this rfl

theorem ne_le (c : Conf) : c.ne ≤ c.n := List.countP_le_length

namespace Fn

/-- Is it a parameter regressor? -/
def isReg : Fn → Bool
  | regJdq | regJTw | regDl | regK | regD | regDm | regMm => true
  | _ => false

/-- Size of the result. -/
def rows (c : Conf) : Fn → ℕ
  | T _ | T0 _ | T0ee => 4
  | J _ | Jee | JeeDot | JeeDdot | Jcm _ | regJdq => 6
  | k | K _ | d | D _ | dm | Dm _ | Mm | regK | regD | regDm | regMm => c.ne
  | _ => c.n

def cols (c : Conf) : Fn → ℕ
  | T _ | T0 _ | T0ee => 4
  | JeePinv => 6
  | G | Gdot | Gddot | dl | k | d | dm => 1
  | K _ | D _ | Dm _ | Mm => c.ne
  | Yr | regM | regC | regG => 10 * c.n
  | regJdq | regJTw => (Key.DH.vars c ++ Key.W2L.vars c ++ Key.EE.vars c).length
  | regDl => (Key.Dl.vars c).length
  | regK => (Key.K.vars c).length
  | regD => (Key.D.vars c).length
  | regDm => (Key.Dm.vars c).length
  | regMm => (Key.Mm.vars c).length
  | _ => c.n

variable [Fl]

theorem rel (L : Base.Like P B B') (hn : B.n = c.n) (f : Fn) (hv : f.Valid c) (hr : f.isReg = false)
    (key : ∀ k ∈ f.sure ++ f.pos c.n, Rel P S (k.size c) 1 (B.at k) (B'.at k)) : Rel P S (f.rows c) (f.cols c) (f.expr B c) (f.expr B' c) := by
  have vq : Rel P S (Key.q.size c) 1 B.q B'.q → VarIn S "q" B.n := fun h => by rw [L.q] at h; exact varIn_of_rel (by rw [hn] at h ⊢; exact h)
  have vdq : Rel P S (Key.dq.size c) 1 B.dq B'.dq → VarIn S "dq" B.n := fun h => by rw [L.dq] at h; exact varIn_of_rel (by rw [hn] at h ⊢; exact h)
  have vddq : Rel P S (Key.ddq.size c) 1 B.ddq B'.ddq → VarIn S "ddq" B.n := fun h => by rw [L.ddq] at h; exact varIn_of_rel (by rw [hn] at h ⊢; exact h)
  have vd3q : Rel P S (Key.d3q.size c) 1 B.d3q B'.d3q → VarIn S "d3q" B.n := fun h => by rw [L.d3q] at h; exact varIn_of_rel (by rw [hn] at h ⊢; exact h)
  have vdqr : Rel P S (Key.dqr.size c) 1 B.dqr B'.dqr → VarIn S "dqr" B.n := fun h => by rw [L.dqr] at h; exact varIn_of_rel (by rw [hn] at h ⊢; exact h)
  have vddqr : Rel P S (Key.ddqr.size c) 1 B.ddqr B'.ddqr → VarIn S "ddqr" B.n := fun h => by rw [L.ddqr] at h; exact varIn_of_rel (by rw [hn] at h ⊢; exact h)
  have kin : Rel P S (Key.q.size c) 1 B.q B'.q → Rel P S (Key.DH.size c) 1 B.dh B'.dh → Rel P S (Key.W2L.size c) 1 B.w2l B'.w2l → Base.Kin P S B B' :=
    fun h1 h2 h3 => ⟨L, vq h1, by rw [hn]; exact h2, h3⟩
  have hne := ne_le c
  cases f <;> cases hr <;>
    simp only [sure, pos, List.cons_append, List.nil_append, List.mem_cons, List.not_mem_nil, or_false, forall_eq_or_imp, forall_eq, Base.at] at key <;>
    simp only [rows, cols, expr, Valid] at hv ⊢
  case T i =>
    rcases i with _ | i
    · simp only [if_true, List.nil_append, List.mem_cons, List.not_mem_nil, or_false, forall_eq] at key
      exact rel_getTransform key L.angW
    · simp only [Nat.succ_ne_zero, if_false, List.cons_append, List.nil_append, List.mem_cons, List.not_mem_nil, or_false, forall_eq_or_imp, forall_eq] at key
      exact Base.rel_Ti_succ L (vq key.1) (by rw [hn]; exact key.2) (by omega)
  case T0 i =>
    rcases i with _ | i
    · simp only [if_true, List.nil_append, List.mem_cons, List.not_mem_nil, or_false, forall_eq] at key
      rw [if_neg (by omega), if_neg (by omega)]
      exact rel_getTransform key L.angW
    · simp only [Nat.succ_ne_zero, if_false] at key
      by_cases h : i = c.n
      · simp only [h, if_true, List.cons_append, List.nil_append, List.mem_cons, List.not_mem_nil, or_false, forall_eq_or_imp, forall_eq] at key
        rw [if_pos (by omega), if_pos (by rw [L.n]; omega)]
        exact (kin key.1 key.2.1 key.2.2.1).T0ee key.2.2.2
      · have h' : ¬ (i + 1 = c.n + 1) := by omega
        simp only [h', if_false, List.cons_append, List.nil_append, List.mem_cons, List.not_mem_nil, or_false, forall_eq_or_imp, forall_eq] at key
        rw [if_neg (by omega), if_neg (by rw [L.n]; omega)]
        exact (kin key.1 key.2.1 key.2.2).T0 (by omega)
  case J i =>
    by_cases h : i = c.n + 1
    · simp only [h, if_true, List.mem_cons, List.not_mem_nil, or_false, forall_eq_or_imp, forall_eq] at key
      obtain rfl : i = B.n + 1 := by omega
      rw [Nat.add_sub_cancel]
      have := (kin key.1 key.2.1 key.2.2.1).Jn key.2.2.2
      rw [← hn]; exact this
    · simp only [h, if_false, List.mem_cons, List.not_mem_nil, or_false, forall_eq_or_imp, forall_eq] at key
      rw [← hn]
      exact (kin key.1 key.2.1 key.2.2).J (by omega)
  case T0ee => exact (kin key.1 key.2.1 key.2.2.1).T0ee key.2.2.2
  case Jee => rw [← hn]; exact (kin key.1 key.2.1 key.2.2.1).Jee key.2.2.2
  case JeeDot => rw [← hn]; exact (kin key.1 key.2.2.1 key.2.2.2.1).JeeDot key.2.2.2.2 (vdq key.2.1)
  case JeeDdot => rw [← hn]; exact (kin key.1 key.2.2.2.1 key.2.2.2.2.1).JeeDdot key.2.2.2.2.2 (vdq key.2.1) (vddq key.2.2.1)
  case JeePinv => rw [← hn]; exact (kin key.1 key.2.1 key.2.2.1).JeePinv key.2.2.2
  case Jcm i => rw [← hn]; exact (kin key.1 key.2.1 key.2.2.1).Jcm (by rw [hn]; exact key.2.2.2) (by omega)
  case M => rw [← hn]; exact (kin key.1 key.2.1 key.2.2.1).M (by rw [hn]; exact key.2.2.2)
  case C => rw [← hn]; exact (kin key.1 key.2.2.1 key.2.2.2.1).C (by rw [hn]; exact key.2.2.2.2) (vdq key.2.1)
  case Cstd => rw [← hn]; exact (kin key.1 key.2.2.1 key.2.2.2.1).Cstd (by rw [hn]; exact key.2.2.2.2) (vdq key.2.1)
  case G => rw [← hn]; exact (kin key.1 key.2.1 key.2.2.1).G (by rw [hn]; exact key.2.2.2.2) key.2.2.2.1
  case Mdot => rw [← hn]; exact (kin key.1 key.2.2.1 key.2.2.2.1).Mdot (by rw [hn]; exact key.2.2.2.2) (vdq key.2.1)
  case Mddot => rw [← hn]; exact (kin key.1 key.2.2.2.1 key.2.2.2.2.1).Mddot (by rw [hn]; exact key.2.2.2.2.2) (vdq key.2.1) (vddq key.2.2.1)
  case Cdot => rw [← hn]; exact (kin key.1 key.2.2.2.1 key.2.2.2.2.1).Cdot (by rw [hn]; exact key.2.2.2.2.2) (vdq key.2.1) (vddq key.2.2.1)
  case Cddot =>
    rw [← hn]
    exact (kin key.1 key.2.2.2.2.1 key.2.2.2.2.2.1).Cddot (by rw [hn]; exact key.2.2.2.2.2.2) (vdq key.2.1) (vddq key.2.2.1) (vd3q key.2.2.2.1)
  case Gdot => rw [← hn]; exact (kin key.1 key.2.2.1 key.2.2.2.1).Gdot (by rw [hn]; exact key.2.2.2.2.2) key.2.2.2.2.1 (vdq key.2.1)
  case Gddot =>
    rw [← hn]
    exact (kin key.1 key.2.2.2.1 key.2.2.2.2.1).Gddot (by rw [hn]; exact key.2.2.2.2.2.2) key.2.2.2.2.2.1 (vdq key.2.1) (vddq key.2.2.1)
  case dl => rw [← hn]; exact Base.rel_dlFun L.n (by rw [hn]; exact key.1) (by rw [hn]; exact key.2)
  case Dl i => rw [L.n, ← hn]; exact rel_diagPar key (by simp [Key.size, hn]) _
  case k =>
    simp only [Key.size, hv.1, if_true] at key
    exact Base.rel_kFun key.1 hne key.2.1 key.2.2
  case K i =>
    simp only [Key.size, hv.1, if_true] at key
    exact rel_diagPar key le_rfl _
  case d =>
    simp only [Key.size, hv.1, if_true] at key
    exact Base.rel_dFun key.1 hne key.2.1 key.2.2
  case D i =>
    simp only [Key.size, hv.1, if_true] at key
    exact rel_diagPar key le_rfl _
  case dm =>
    simp only [Key.size, hv.1, if_true] at key
    exact Base.rel_dmFun key.1 key.2
  case Dm i =>
    simp only [Key.size, hv.1, if_true] at key
    exact rel_diagPar key le_rfl _
  case Mm =>
    simp only [Key.size, hv, if_true] at key
    exact Base.rel_MmFun key
  case Yr =>
    rw [← hn]
    exact (kin key.1 key.2.2.2.2.1 key.2.2.2.2.2.1).Yr (vdq key.2.1) (vdqr key.2.2.1) (vddqr key.2.2.2.1) key.2.2.2.2.2.2
  case regM => rw [← hn]; exact (kin key.1 key.2.2.1 key.2.2.2).regM (vddqr key.2.1)
  case regC => rw [← hn]; exact (kin key.1 key.2.2.2.1 key.2.2.2.2).regC (vdq key.2.1) (vdqr key.2.2.1)
  case regG => rw [← hn]; exact (kin key.1 key.2.1 key.2.2.1).regG key.2.2.2

end Fn

end

end Thunder
