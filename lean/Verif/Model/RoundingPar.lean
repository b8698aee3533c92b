import Verif.Model.Rounding
import Verif.Model.Inertia
import Verif.Model.Wrapper

/-!
# DYN/REG conversion with rounding errors

`Robot::update_inertial_DYN/REG` (src/thunder/src/robot.cpp:918-973) and `thunder_robot::update_inertial_DYN/REG`
(src/thunder/thunder_robot_template/thunder_robot.cpp:161-188) as in `Verif.Model.Inertia`, with the operations done by a `Machine`.

Simplifications: the order of the three additions of a product of matrices is that of the model; when an entry of a link is no number or, in a division by
the mass, the mass is zero, all ten results are left undetermined.
-/

open scoped Classical

namespace Thunder

noncomputable section

/-- `hat`, src/utils.cpp:449-462 and thunder_robot.cpp:769-788. -/
def hatE (v : Fin 3 → Expr) : Fin 3 → Fin 3 → Expr :=
  ![![.const 0, .neg (v 2), v 1], ![v 2, .const 0, .neg (v 0)], ![.neg (v 1), v 0, .const 0]]
/-- Eigen matrix product. -/
def mulE (A B : Fin 3 → Fin 3 → Expr) : Fin 3 → Fin 3 → Expr := fun i j =>
  .add (.add (.mul (A i 0) (B 0 j)) (.mul (A i 1) (B 1 j))) (.mul (A i 2) (B 2 j))
/-- `transpose()` of a 3×3 matrix. -/
def trE (A : Fin 3 → Fin 3 → Expr) : Fin 3 → Fin 3 → Expr := fun i j => A j i
/-- Product of a double and a 3×3 matrix. -/
def scaleE (m : Expr) (A : Fin 3 → Fin 3 → Expr) : Fin 3 → Fin 3 → Expr := fun i j => .mul m (A i j)
/-- `I_tmp_v << I(0,0), I(0,1), I(0,2), I(1,1), I(1,2), I(2,2)`, src/robot.cpp:928, 958. -/
def upE (A : Fin 3 → Fin 3 → Expr) : List Expr := [A 0 0, A 0 1, A 0 2, A 1 1, A 1 2, A 2 2]
/-- `mass * (hat(CoM).transpose() * hat(CoM))`, src/robot.cpp:926, 955. -/
def steinerGenE (m : Expr) (c : Fin 3 → Expr) : Fin 3 → Fin 3 → Expr := scaleE m (mulE (trE (hatE c)) (hatE c))
/-- `mass * hat(CoM) * hat(CoM).transpose()`, thunder_robot.cpp:166, 181. -/
def steinerWrapE (m : Expr) (c : Fin 3 → Expr) : Fin 3 → Fin 3 → Expr := mulE (scaleE m (hatE c)) (trE (hatE c))

/-- One iteration of the loop in `update_inertial_REG` (src/robot.cpp:947-970, thunder_robot.cpp:176-187). -/
def linkRegE (st : Expr → (Fin 3 → Expr) → Fin 3 → Fin 3 → Expr) (p : ℕ → Expr) : List Expr :=
  [p 0, .mul (p 0) (p 1), .mul (p 0) (p 2), .mul (p 0) (p 3)] ++
    List.zipWith .add [p 4, p 5, p 6, p 7, p 8, p 9] (upE (st (p 0) ![p 1, p 2, p 3]))

/-- One iteration of the loop in `update_inertial_DYN` (src/robot.cpp:922-937, thunder_robot.cpp:162-172). -/
def linkDynE (st : Expr → (Fin 3 → Expr) → Fin 3 → Fin 3 → Expr) (p : ℕ → Expr) : List Expr :=
  [p 0, .div (p 1) (p 0), .div (p 2) (p 0), .div (p 3) (p 0)] ++
    List.zipWith .sub [p 4, p 5, p 6, p 7, p 8, p 9] (upE (st (p 0) ![.div (p 1) (p 0), .div (p 2) (p 0), .div (p 3) (p 0)]))

/-- The ten parameters of a link. -/
def parE (k : ℕ) : Expr := .var ⟨"par", k⟩

variable {u : ℝ}

/-- The formulas `f` for one link, computed by the machine. -/
def Machine.link (m : Machine u) (f : (ℕ → Expr) → List Expr) (p : ℕ → Num) : List Num :=
  if ∀ k < 10, p k ≠ none then (f parE).map fun e => some (m.ev (fun v => (p v.idx).getD 0) e) else List.replicate 10 none

/-- The vector computed by `Robot::update_inertial_REG` from `par_DYN`, src/robot.cpp:942-973. -/
def regOfDynOn (m : Machine u) (n : ℕ) (p : List Num) : List Num := (List.range n).flatMap fun i => m.link (linkRegE steinerGenE) (seg p i)
/-- The vector computed by `Robot::update_inertial_DYN` from `par_REG`, src/robot.cpp:918-940. -/
def dynOfRegOn (m : Machine u) (n : ℕ) (p : List Num) : List Num :=
  (List.range n).flatMap fun i => if seg p i 0 = some 0 then List.replicate 10 none else m.link (linkDynE steinerGenE) (seg p i)
/-- `thunder_robot::update_inertial_REG`, thunder_robot.cpp:175-188. -/
def regOfDynWOn (m : Machine u) (n : ℕ) (p : List Num) : List Num := (List.range n).flatMap fun i => m.link (linkRegE steinerWrapE) (seg p i)
/-- `thunder_robot::update_inertial_DYN`, thunder_robot.cpp:161-173. -/
def dynOfRegWOn (m : Machine u) (n : ℕ) (p : List Num) : List Num :=
  (List.range n).flatMap fun i => if seg p i 0 = some 0 then List.replicate 10 none else m.link (linkDynE steinerWrapE) (seg p i)

namespace Robot

open Act

/-- `update_inertial_DYN` on a machine, src/robot.cpp:918-940. -/
def updateDYNOn (m : Machine u) : Act Robot ℤ := do
  let p ← getParREG
  let r ← read
  let _ ← setParDYN (dynOfRegOn m r.n p)
  pure 1
/-- `update_inertial_REG` on a machine, src/robot.cpp:942-973. -/
def updateREGOn (m : Machine u) : Act Robot ℤ := do
  let p ← getParDYN
  let r ← read
  let _ ← setParREG (regOfDynOn m r.n p)
  pure 1

end Robot

namespace Wrap

/-- `update_inertial_REG` on a machine, thunder_robot.cpp:175-188. -/
def updateREGOn (m : Machine u) (c : Cfg) (s : Obj) : Out :=
  if (s.vec .DYN).length < 10 * c.n then .ub
  else must (setSeg (s.vec .REG) 0 (regOfDynWOn m c.n (s.vec .DYN))) fun v => .ok (s.set .REG v)

/-- `update_inertial_DYN` on a machine, thunder_robot.cpp:161-173. -/
def updateDYNOn (m : Machine u) (c : Cfg) (s : Obj) : Out :=
  if (s.vec .REG).length < 10 * c.n then .ub
  else must (setSeg (s.vec .DYN) 0 (dynOfRegWOn m c.n (s.vec .REG))) fun v => .ok (s.set .DYN v)

/-- `set_par_REG` on a machine, thunder_robot.cpp:200-208. -/
def setREGOn (m : Machine u) (c : Cfg) (v : List Num) (upd : Bool) (s : Obj) : Out :=
  let s := if v.length = (s.vec .REG).length then s.set .REG v else s
  if upd then updateDYNOn m c s else .ok s

end Wrap

end

end Thunder
