import Verif.Model.Shipped
import Verif.Spec.Shipped
import Verif.Spec.Balance
import Verif.Spec.Generated

/-!
# What is expected of the robot files of the repository
-/

namespace Thunder.Spec

noncomputable section

/-- A file with `n` joints, rigid and without friction, that has no section `kinematics` and no section `dynamics`. -/
structure NoKin (y : Yaml) (n : ℕ) (ts : List String) : Prop where
  joints : Entry Yaml.asI y "num_joints" n
  types : Entry (Yaml.asVec Yaml.asS) y "type_joints" ts
  length : ts.length = n
  dl : NoChild y "Dl_order"
  elastic : NoChild y "ELASTIC_MODEL"
  kin : NoChild y "kinematics"
  dyn : NoChild y "dynamics"

/-- The file is well formed with contents `c`, the joint types are known, the symbolic parameters are in front, the links have non-negative masses
and positive semidefinite inertia, every joint has inertia of its own, and no coefficient of friction is negative. -/
structure Sound (y : Yaml) (c : Conf) : Prop where
  describes : Describes y c
  joints : JointsOk c
  aligned : Aligned c
  physical : Physical c.dyn c.n
  own : ∀ i < c.n, 0 < ownInertia c.dyn i (kindOf c i)
  friction : ∀ k, 0 ≤ c.dl k
  damper : ∀ k, 0 ≤ c.D k
  motor : ∀ k, 0 ≤ c.Dm k

/-- Base names, contents and tables of the robot files. -/
def fleet : List (String × Yaml × Conf) :=
  [("RRR", Thunder.Ship.RRR, Ship.RRRC), ("seaRRR", Thunder.Ship.seaRRR, Ship.seaRRRC), ("egoRightArm", Thunder.Ship.ego, Ship.egoC),
    ("franka", Thunder.Ship.franka, Ship.frankaC), ("frankaWrist", Thunder.Ship.wrist, Ship.wristC), ("lewis", Thunder.Ship.lewis, Ship.lewisC),
    ("richard", Thunder.Ship.richard, Ship.richardC), ("R3", Thunder.Ship.R3, Ship.R3C), ("R5", Thunder.Ship.R5, Ship.R5C),
    ("R7", Thunder.Ship.R7, Ship.R7C), ("R9", Thunder.Ship.R9, Ship.R9C), ("R9_kinSymb", Thunder.Ship.R9k, Ship.R9kC),
    ("R9_noDynSymb", Thunder.Ship.R9n, Ship.R9nC), ("RRR", Thunder.Ship.oldRRR, Ship.oldRRRC), ("seaRRR", Thunder.Ship.oldSea, Ship.oldSeaC),
    ("franka", Thunder.Ship.oldFranka, Ship.oldFrankaC)]

/-- The number written for a right angle in the files. -/
def rightAngle : ℝ := 1.5707963267948966

/-- The library functions are exact at 0; at the right angles of the files the sine is ±1 and the cosine is below the threshold of `snap`. -/
structure RightAngles [Fl] : Prop where
  cos0 : Fl.cosF 0 = 1
  sin0 : Fl.sinF 0 = 0
  cosR : |Fl.cosF rightAngle| < 1e-15
  cosL : |Fl.cosF (-rightAngle)| < 1e-15
  sinR : Fl.sinF rightAngle = 1
  sinL : Fl.sinF (-rightAngle) = -1

end

end Thunder.Spec
