import Verif.Model.Inertia
import Mathlib.Analysis.SpecialFunctions.Trigonometric.Basic

/-!
# Inertial bodies and frame offsets

src/thunder/src/utils.cpp:12-104, src/thunder/src/FrameOffset.cpp, thunder_robot.cpp:790-827.  `cos` and `sin` are the real functions
(rounding is not modelled).  The vectors of a `LinkProp` have their declared sizes.
-/

namespace Thunder

noncomputable section

/-- `cos` of a double. -/
def Num.cos (a : Num) : Num := Option.map Real.cos a
/-- `sin` of a double. -/
def Num.sin (a : Num) : Num := Option.map Real.sin a

/-- The matrix filled in by `rpyRot` (src/utils.cpp:77-86, thunder_robot.cpp:800-809) and by `FrameOffset::get_rotation` /
`get_transform` (src/FrameOffset.cpp:55-64, 95-103) from the cosines and sines of yaw, pitch and roll. -/
def yprMat (cy sy cp sp cr sr : Num) : M3 :=
  ![![Num.mul cy cp, Num.sub (Num.mul (Num.mul cy sp) sr) (Num.mul sy cr), Num.sub (Num.mul (Num.mul cy sp) cr) (Num.mul sy sr)],
    ![Num.mul sy cp, Num.add (Num.mul (Num.mul sy sp) sr) (Num.mul cy cr), Num.sub (Num.mul (Num.mul sy sp) cr) (Num.mul cy sr)],
    ![Num.neg sp, Num.mul cp sr, Num.mul cp cr]]

/-- `rpyRot`, src/utils.cpp:67-89: `rpy[0]` is roll, `rpy[2]` is yaw. -/
def rpyRot (v : Fin 3 → Num) : M3 :=
  yprMat (Num.cos (v 2)) (Num.sin (v 2)) (Num.cos (v 1)) (Num.sin (v 1)) (Num.cos (v 0)) (Num.sin (v 0))

/-- `thunder_robot::rpyRot`, thunder_robot.cpp:790-812. -/
def rpyRotW (v : Fin 3 → Num) : M3 :=
  yprMat (Num.cos (v 2)) (Num.sin (v 2)) (Num.cos (v 1)) (Num.sin (v 1)) (Num.cos (v 0)) (Num.sin (v 0))

/-- `createI`, src/utils.cpp:91-104, thunder_robot.cpp:814-827. -/
def createI (p : Fin 6 → Num) : M3 := ![![p 0, p 1, p 2], ![p 1, p 3, p 4], ![p 2, p 4, p 5]]

/-- Sum of 3×3 matrices, src/utils.cpp:60. -/
def add3 (A B : M3) : M3 := fun i j => Num.add (A i j) (B i j)
/-- Product of a 3×3 matrix and a vector, src/utils.cpp:26. -/
def mulV3 (A : M3) (v : Fin 3 → Num) : Fin 3 → Num := fun i =>
  Num.add (Num.add (Num.mul (A i 0) (v 0)) (Num.mul (A i 1) (v 1))) (Num.mul (A i 2) (v 2))

/-- `LinkProp`, library/utils.h:13-20. -/
structure LinkProp where
  name : String
  mass : Num
  parI : Fin 6 → Num
  xyz : Fin 3 → Num
  rpy : Fin 3 → Num
  Dl : List Num

/-- `{I(0,0), I(0,1), I(0,2), I(1,1), I(1,2), I(2,2)}`, src/utils.cpp:33, 64. -/
def parI6 (A : M3) : Fin 6 → Num := ![A 0 0, A 0 1, A 0 2, A 1 1, A 1 2, A 2 2]

/-- `transformBodyInertial`, src/utils.cpp:12-35; `body` is the output argument with its previous contents. -/
def transformBody (d rpy : Fin 3 → Num) (u body : LinkProp) : LinkProp :=
  let Riu := rpyRot rpy
  let Rib := mul3 Riu (rpyRot u.rpy)
  { body with
    mass := u.mass
    xyz := fun k => Num.add (d k) (mulV3 Riu u.xyz k)
    parI := parI6 (mul3 (mul3 Rib (createI u.parI)) (tr3 Rib))
    name := u.name }

/-- `mergeBodyInertial`, src/utils.cpp:37-65; `nb` is the output argument with its previous contents. -/
def mergeBody (b1 b2 nb : LinkProp) : LinkProp :=
  let com : Fin 3 → Num := fun k =>
    Num.div (Num.add (Num.mul b1.mass (b1.xyz k)) (Num.mul b2.mass (b2.xyz k))) (Num.add b1.mass b2.mass)
  let d1 := hatN fun k => Num.sub (com k) (b1.xyz k)
  let d2 := hatN fun k => Num.sub (com k) (b2.xyz k)
  { nb with
    mass := Num.add b1.mass b2.mass
    xyz := com
    parI := parI6 (add3 (add3 (add3 (createI b1.parI) (mul3 (scale3 b1.mass d1) (tr3 d1))) (createI b2.parI))
      (mul3 (scale3 b2.mass d2) (tr3 d2))) }

/-- `FrameOffset`, library/FrameOffset.h. -/
structure FrameOffset where
  ypr : List Num
  translation : List Num
  gravity : List Num

namespace FrameOffset

/-- Three-argument constructor, src/FrameOffset.cpp:12-27; `none` is the `runtime_error`. -/
def mk3 (ypr pos g : List Num) : Option FrameOffset :=
  if ypr.length = 3 ∧ pos.length = 3 ∧ g.length = 3 then some ⟨ypr, pos, g⟩ else none
/-- Two-argument constructor, src/FrameOffset.cpp:29-41; `gravity.resize(3)` zero-initialises. -/
def mk2 (ypr pos : List Num) : Option FrameOffset :=
  if ypr.length = 3 ∧ pos.length = 3 then some ⟨ypr, pos, List.replicate 3 (some 0)⟩ else none
/-- Default constructor, src/FrameOffset.cpp:5-10. -/
def mk0 : FrameOffset := ⟨List.replicate 3 (some 0), List.replicate 3 (some 0), List.replicate 3 (some 0)⟩

/-- `v[i]` on a `std::vector`; reading past the end is undefined and modelled as `none`. -/
def at' (v : List Num) (i : ℕ) : Num := v.getD i none

/-- `get_rotation`, src/FrameOffset.cpp:45-67: `ypr[0]` is yaw, `ypr[2]` is roll. -/
def rotation (f : FrameOffset) : M3 :=
  yprMat (Num.cos (at' f.ypr 0)) (Num.sin (at' f.ypr 0)) (Num.cos (at' f.ypr 1)) (Num.sin (at' f.ypr 1))
    (Num.cos (at' f.ypr 2)) (Num.sin (at' f.ypr 2))

/-- `get_transform`, src/FrameOffset.cpp:80-109. -/
def transform (f : FrameOffset) : Fin 4 → Fin 4 → Num := fun i j =>
  if hi : (i : ℕ) < 3 then if hj : (j : ℕ) < 3 then f.rotation ⟨i, hi⟩ ⟨j, hj⟩ else at' f.translation i
  else if (j : ℕ) = 3 then some 1 else some 0

end FrameOffset

end

end Thunder
