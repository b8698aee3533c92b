import Verif.Model.User
import Verif.Model.Body

/-!
# Member functions that read or write a member: `Robot` and `FrameOffset`

Line numbers of the first part refer to src/thunder/src/robot.cpp, those of the second to src/thunder/src/FrameOffset.cpp.
-/

namespace Thunder

noncomputable section

namespace Robot

/-- `get_numJoints`, lines 589-591. -/
def getNumJoints (r : Robot) : ℤ := r.n
/-- `get_ELASTIC`, line 593. -/
def getELASTIC (r : Robot) : Bool := r.elastic
/-- `get_K_order`, line 594. -/
def getKOrder (r : Robot) : ℤ := r.kI
/-- `get_D_order`, line 595. -/
def getDOrder (r : Robot) : ℤ := r.dI
/-- `get_Dl_order`, line 596. -/
def getDlOrder (r : Robot) : ℤ := r.dlI
/-- `get_Dm_order`, line 597. -/
def getDmOrder (r : Robot) : ℤ := r.dmI
/-- `get_numElasticJoints`, line 598. -/
def getNumElasticJoints (r : Robot) : ℤ := r.ne
/-- `get_isElasticJoint`, line 599. -/
def getIsElasticJoint (r : Robot) : List ℤ := r.isEla
/-- `get_numParDYN`, lines 609-611; `STD_PAR_LINK` is 10 (library/robot.h:104). -/
def getNumParDYN (r : Robot) : ℤ := 10 * r.n
/-- `get_numParREG`, lines 613-615. -/
def getNumParREG (r : Robot) : ℤ := 10 * r.n
/-- `get_jointsType`, lines 621-623. -/
def getJointsType (r : Robot) : List String := r.types

end Robot

namespace FrameOffset

/-- A call of a setter, lines 121-125; none of them looks at the size of the vector. -/
inductive Setter
  | gravity (v : List Num)
  | translation (v : List Num)
  | ypr (v : List Num)

/-- `set_gravity`, `set_translation`, `set_ypr`, lines 121-125. -/
def set (f : FrameOffset) : Setter → FrameOffset
  | .gravity v => { f with gravity := v }
  | .translation v => { f with translation := v }
  | .ypr v => { f with ypr := v }

/-- `v[0]`, `v[1]`, `v[2]` of a `std::vector`; `none` when the vector is too short, which is undefined behaviour. -/
def three : List Num → Option (Fin 3 → Num)
  | a :: b :: c :: _ => some ![a, b, c]
  | _ => none

/-- `get_ypr`, line 43. -/
def getYpr (f : FrameOffset) : List Num := f.ypr
/-- `get_translation`, lines 69-78. -/
def getTranslation (f : FrameOffset) : Option (Fin 3 → Num) := three f.translation
/-- `get_gravity`, lines 112-119. -/
def getGravity (f : FrameOffset) : Option (Fin 3 → Num) := three f.gravity
/-- `get_rotation`, lines 45-67. -/
def getRotation (f : FrameOffset) : Option M3 := (three f.ypr).map fun _ => f.rotation
/-- `get_transform`, lines 80-110. -/
def getTransform (f : FrameOffset) : Option (Fin 4 → Fin 4 → Num) := do
  let _ ← three f.ypr
  let _ ← three f.translation
  pure f.transform
/-- `hat`, lines 127-146; a wrong size is only reported on the console. -/
def hat (v : List Num) : Option M3 :=
  (three v).map fun a => ![![some 0, Num.neg (a 2), a 1], ![a 2, some 0, Num.neg (a 0)], ![Num.neg (a 1), a 0, some 0]]

end FrameOffset

end

end Thunder
