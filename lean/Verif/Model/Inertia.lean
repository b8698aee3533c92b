import Verif.Model.Num
import Mathlib.Data.Fin.VecNotation

/-!
# DYN/REG conversion of the inertial parameters

`Robot::update_inertial_DYN/REG` (src/thunder/src/robot.cpp:918-973) and `thunder_robot::update_inertial_DYN/REG`
(src/thunder/thunder_robot_template/thunder_robot.cpp:161-188).  Parameter vectors are lists of `Num`.
-/

namespace Thunder

noncomputable section

/-- 3×3 matrix of doubles (`Eigen::Matrix3d`). -/
abbrev M3 := Fin 3 → Fin 3 → Num

/-- `hat`, src/utils.cpp:449-462 and thunder_robot.cpp:769-788. -/
def hatN (v : Fin 3 → Num) : M3 :=
  ![![some 0, Num.neg (v 2), v 1], ![v 2, some 0, Num.neg (v 0)], ![Num.neg (v 1), v 0, some 0]]

/-- Eigen matrix product. -/
def mul3 (A B : M3) : M3 := fun i j =>
  Num.add (Num.add (Num.mul (A i 0) (B 0 j)) (Num.mul (A i 1) (B 1 j))) (Num.mul (A i 2) (B 2 j))
/-- `transpose()` of a 3×3 matrix. -/
def tr3 (A : M3) : M3 := fun i j => A j i
/-- Product of a double and a 3×3 matrix. -/
def scale3 (m : Num) (A : M3) : M3 := fun i j => Num.mul m (A i j)

/-- `I_tmp_v << I(0,0), I(0,1), I(0,2), I(1,1), I(1,2), I(2,2)`, src/robot.cpp:928, 958. -/
def up6 (A : M3) : List Num := [A 0 0, A 0 1, A 0 2, A 1 1, A 1 2, A 2 2]

/-- `v.segment(10*i, 10)(k)`. -/
def seg (v : List Num) (i k : ℕ) : Num := v.getD (10 * i + k) none

/-- `mass * (hat(CoM).transpose() * hat(CoM))`, src/robot.cpp:926, 955. -/
def steinerGen (m : Num) (c : Fin 3 → Num) : M3 := scale3 m (mul3 (tr3 (hatN c)) (hatN c))
/-- `mass * hat(CoM) * hat(CoM).transpose()`, thunder_robot.cpp:166, 181. -/
def steinerWrap (m : Num) (c : Fin 3 → Num) : M3 := mul3 (scale3 m (hatN c)) (tr3 (hatN c))

/-- One iteration of the loop in `update_inertial_REG` (src/robot.cpp:947-970, thunder_robot.cpp:176-187). -/
def linkReg (st : Num → (Fin 3 → Num) → M3) (p : ℕ → Num) : List Num :=
  [p 0, Num.mul (p 0) (p 1), Num.mul (p 0) (p 2), Num.mul (p 0) (p 3)] ++
    List.zipWith Num.add [p 4, p 5, p 6, p 7, p 8, p 9] (up6 (st (p 0) ![p 1, p 2, p 3]))

/-- One iteration of the loop in `update_inertial_DYN` (src/robot.cpp:922-937, thunder_robot.cpp:162-172). -/
def linkDyn (st : Num → (Fin 3 → Num) → M3) (p : ℕ → Num) : List Num :=
  [p 0, Num.div (p 1) (p 0), Num.div (p 2) (p 0), Num.div (p 3) (p 0)] ++
    List.zipWith Num.sub [p 4, p 5, p 6, p 7, p 8, p 9]
      (up6 (st (p 0) ![Num.div (p 1) (p 0), Num.div (p 2) (p 0), Num.div (p 3) (p 0)]))

/-- The vector computed by `Robot::update_inertial_REG` from `par_DYN`, src/robot.cpp:942-973. -/
def regOfDyn (n : ℕ) (p : List Num) : List Num := (List.range n).flatMap fun i => linkReg steinerGen (seg p i)
/-- The vector computed by `Robot::update_inertial_DYN` from `par_REG`, src/robot.cpp:918-940. -/
def dynOfReg (n : ℕ) (p : List Num) : List Num := (List.range n).flatMap fun i => linkDyn steinerGen (seg p i)
/-- `thunder_robot::update_inertial_REG`, thunder_robot.cpp:175-188. -/
def regOfDynW (n : ℕ) (p : List Num) : List Num := (List.range n).flatMap fun i => linkReg steinerWrap (seg p i)
/-- `thunder_robot::update_inertial_DYN`, thunder_robot.cpp:161-173. -/
def dynOfRegW (n : ℕ) (p : List Num) : List Num := (List.range n).flatMap fun i => linkDyn steinerWrap (seg p i)

end

end Thunder
