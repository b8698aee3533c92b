import Verif.Model.Yaml
import Mathlib.Data.Real.Basic

/-!
# The robot files of the repository

The trees that `YAML::LoadFile` gives for the files in `src/thunder/robots` and `robots` (anchors and aliases resolved, comments dropped).  Numbers are the
real numbers written in the files; an integer can also be read as a number.
-/

namespace Thunder.Ship

noncomputable section

/-- A map. -/
def m (l : List (String × Yaml)) : Yaml := .map (l.map fun p => (some p.1, p.2))
/-- A decimal number. -/
def r (t : String) (x : ℝ) : Yaml := .scalar ⟨t, some (some x), none, none⟩
/-- An integer. -/
def z (t : String) (k : ℤ) (x : ℝ) : Yaml := .scalar ⟨t, some (some x), some k, none⟩
/-- The integer 0. -/
def O : Yaml := z "0" 0 0
/-- The integer 1. -/
def I : Yaml := z "1" 1 1
/-- A word. -/
def w (t : String) : Yaml := .scalar ⟨t, none, none, none⟩
/-- A truth value. -/
def b (t : String) (x : Bool) : Yaml := .scalar ⟨t, none, none, some x⟩

/-- `src/thunder/robots/RRR/RRR.yaml`. -/
def RRR : Yaml := m [
  ("version", r "0.2" 0.2),
  ("PI_2", r "1.5707963267948966" 1.5707963267948966),
  ("PI_2_neg", r "-1.5707963267948966" (-1.5707963267948966)),
  ("num_joints", z "3" 3 3),
  ("type_joints", .seq [w "R", w "R", w "R"]),
  ("kinematics", m [("symb", .seq [O, O, O, O, O, O, O, O, O, O, O, O]), ("DH", .seq [O, O, I, O, I, r "1.5707963267948966" 1.5707963267948966, O, O,
    I, O, O, O])]),
  ("gravity", m [("symb", .seq [O, O, O]), ("value", .seq [O, O, r "-9.81" (-9.81)])]),
  ("Base_to_L0", m [("symb", .seq [O, O, O, O, O, O]), ("tr", .seq [O, O, O]), ("ypr", .seq [O, O, O])]),
  ("Ln_to_EE", m [("symb", .seq [O, O, O, O, O, O]), ("tr", .seq [I, O, O]), ("ypr", .seq [O, O, r "-1.5707963267948966" (-1.5707963267948966)])]),
  ("dynamics", m [("link1", m [("inertial", m [("symb", .seq [I, I, I, I, I, I, I, I, I, I]), ("mass", r "5.0" 5.0), ("CoM_x", r "2.0" 2.0),
    ("CoM_y", r "2.0" 2.0), ("CoM_z", r "2.0" 2.0), ("Ixx", r "2.0" 2.0), ("Ixy", r "2.0" 2.0), ("Ixz", r "2.0" 2.0), ("Iyy", r "2.0" 2.0), ("Iyz",
    r "2.0" 2.0), ("Izz", r "2.0" 2.0)]),
      ("friction", m [("symb", .seq [O, O]), ("Dl", .seq [r "0.1" 0.1, r "0.01" 0.01])])]),
    ("link2", m [("inertial", m [("symb", .seq [I, I, I, I, I, I, I, I, I, I]), ("mass", r "3.0" 3.0), ("CoM_x", r "2.0" 2.0), ("CoM_y",
      r "2.0" 2.0), ("CoM_z", r "2.0" 2.0), ("Ixx", r "2.0" 2.0), ("Ixy", r "2.0" 2.0), ("Ixz", r "2.0" 2.0), ("Iyy", r "2.0" 2.0), ("Iyz",
      r "2.0" 2.0), ("Izz", r "2.0" 2.0)]),
      ("friction", m [("symb", .seq [O, O]), ("Dl", .seq [r "0.1" 0.1, r "0.01" 0.01])])]),
    ("link3", m [("inertial", m [("symb", .seq [I, I, I, I, I, I, I, I, I, I]), ("mass", r "1.0" 1.0), ("CoM_x", r "2.0" 2.0), ("CoM_y",
      r "0.3" 0.3), ("CoM_z", r "2.0" 2.0), ("Ixx", r "2.0" 2.0), ("Ixy", r "2.0" 2.0), ("Ixz", r "2.0" 2.0), ("Iyy", r "2.0" 2.0), ("Iyz",
      r "2.0" 2.0), ("Izz", r "2.0" 2.0)]),
      ("friction", m [("symb", .seq [O, O]), ("Dl", .seq [r "0.1" 0.1, r "0.01" 0.01])])])])]

/-- `src/thunder/robots/RRR_sea/seaRRR.yaml`. -/
def seaRRR : Yaml := m [
  ("version", r "0.3" 0.3),
  ("PI_2", r "1.5707963267948966" 1.5707963267948966),
  ("PI_2_neg", r "-1.5707963267948966" (-1.5707963267948966)),
  ("ELASTIC_MODEL", b "true" true),
  ("num_joints", z "3" 3 3),
  ("Dl_order", z "2" 2 2),
  ("type_joints", .seq [w "R_SEA", w "R_SEA", w "R_SEA"]),
  ("kinematics", m [("symb", .seq [O, O, O, O, O, O, O, O, O, O, O, O]), ("DH", .seq [O, O, I, O, O, r "1.5707963267948966" 1.5707963267948966, O, O,
    I, O, O, O])]),
  ("gravity", m [("symb", .seq [O, O, O]), ("value", .seq [O, O, r "-9.81" (-9.81)])]),
  ("Base_to_L0", m [("symb", .seq [O, O, O, O, O, O]), ("tr", .seq [O, O, O]), ("ypr", .seq [O, O, O])]),
  ("Ln_to_EE", m [("symb", .seq [O, O, O, O, O, O]), ("tr", .seq [I, O, O]), ("ypr", .seq [O, O, r "-1.5707963267948966" (-1.5707963267948966)])]),
  ("dynamics", m [("link1", m [("inertial", m [("symb", .seq [O, O, O, O, O, O, O, O, O, O]), ("mass", r "1.0" 1.0), ("CoM_x", r "1.0" 1.0),
    ("CoM_y", r "1.0" 1.0), ("CoM_z", r "1.0" 1.0), ("Ixx", r "1.0" 1.0), ("Ixy", r "1.0" 1.0), ("Ixz", r "1.0" 1.0), ("Iyy", r "1.0" 1.0), ("Iyz",
    r "1.0" 1.0), ("Izz", r "1.0" 1.0)]),
      ("friction", m [("symb", .seq [O, O]), ("Dl", .seq [r "0.1" 0.1, r "0.01" 0.01])])]),
    ("link2", m [("inertial", m [("symb", .seq [O, O, O, O, O, O, O, O, O, O]), ("mass", r "1.0" 1.0), ("CoM_x", r "1.0" 1.0), ("CoM_y",
      r "1.0" 1.0), ("CoM_z", r "1.0" 1.0), ("Ixx", r "1.0" 1.0), ("Ixy", r "1.0" 1.0), ("Ixz", r "1.0" 1.0), ("Iyy", r "1.0" 1.0), ("Iyz",
      r "1.0" 1.0), ("Izz", r "1.0" 1.0)]),
      ("friction", m [("symb", .seq [O, O]), ("Dl", .seq [r "0.1" 0.1, r "0.01" 0.01])])]),
    ("link3", m [("inertial", m [("symb", .seq [O, O, O, O, O, O, O, O, O, O]), ("mass", r "1.0" 1.0), ("CoM_x", r "1.0" 1.0), ("CoM_y",
      r "1.0" 1.0), ("CoM_z", r "1.0" 1.0), ("Ixx", r "1.0" 1.0), ("Ixy", r "1.0" 1.0), ("Ixz", r "1.0" 1.0), ("Iyy", r "1.0" 1.0), ("Iyz",
      r "1.0" 1.0), ("Izz", r "1.0" 1.0)]),
      ("friction", m [("symb", .seq [O, O]), ("Dl", .seq [r "0.1" 0.1, r "0.01" 0.01])])])]),
  ("elastic", m [("K_order", I),
    ("D_order", O),
    ("Dm_order", I),
    ("joints", m [("joint1", m [("K", .seq [r "1.0" 1.0]), ("D", .seq []), ("Dm", .seq [r "0.1" 0.1]), ("Mm", r "1.0" 1.0), ("K_symb", .seq [O]),
      ("D_symb", .seq []), ("Dm_symb", .seq [O]), ("Mm_symb", O)]),
      ("joint2", m [("K", .seq [r "1.0" 1.0]), ("D", .seq []), ("Dm", .seq [r "0.1" 0.1]), ("Mm", r "1.0" 1.0), ("K_symb", .seq [O]), ("D_symb",
        .seq []), ("Dm_symb", .seq [O]), ("Mm_symb", O)]),
      ("joint3", m [("K", .seq [r "1.0" 1.0]), ("D", .seq []), ("Dm", .seq [r "0.1" 0.1]), ("Mm", r "1.0" 1.0), ("K_symb", .seq [O]), ("D_symb",
        .seq []), ("Dm_symb", .seq [O]), ("Mm_symb", O)])])])]

/-- `src/thunder/robots/ego/egoRightArm.yaml`. -/
def ego : Yaml := m [
  ("version", r "0.3" 0.3),
  ("PI", r "3.1415926535897932" 3.1415926535897932),
  ("PI_2", r "1.5707963267948966" 1.5707963267948966),
  ("PI_2_neg", r "-1.5707963267948966" (-1.5707963267948966)),
  ("ELASTIC_MODEL", b "true" true),
  ("num_joints", z "5" 5 5),
  ("Dl_order", I),
  ("type_joints", .seq [w "R_SEA", w "R_SEA", w "R_SEA", w "R_SEA", w "R_SEA"]),
  ("kinematics", m [("symb", .seq [O, O, O, O, O, O, O, O, O, O, O, O, O, O, O, O, O, O, O, O]), ("DH", .seq [O,
    r "1.5707963267948966" 1.5707963267948966, r "0.085" 0.085, r "1.5707963267948966" 1.5707963267948966, O,
    r "1.5707963267948966" 1.5707963267948966, r "0.0" 0.0, r "1.5707963267948966" 1.5707963267948966, O,
    r "-1.5707963267948966" (-1.5707963267948966), r "0.17" 0.17, r "-1.5707963267948966" (-1.5707963267948966), O,
    r "-1.5707963267948966" (-1.5707963267948966), O, O, O, r "1.5707963267948966" 1.5707963267948966, r "0.14" 0.14, O])]),
  ("gravity", m [("symb", .seq [O, O, O]), ("value", .seq [O, O, r "-9.81" (-9.81)])]),
  ("Base_to_L0", m [("symb", .seq [I, I, I, O, O, O]), ("tr", .seq [O, O, O]), ("ypr", .seq [r "0.174532922" 0.174532922, r "0.0" 0.0,
    r "-0.1047197530" (-0.1047197530)])]),
  ("Ln_to_EE", m [("symb", .seq [I, I, I, O, O, O]), ("tr", .seq [O, O, r "0.1" 0.1]), ("ypr", .seq [r "3.1415926535897932" 3.1415926535897932,
    r "1.5707963267948966" 1.5707963267948966, O])]),
  ("dynamics", m [("link1", m [("inertial", m [("symb", .seq [I, I, I, I, I, I, I, I, I, I]), ("mass", r "0.5" 0.5), ("CoM_x", r "0.0" 0.0),
    ("CoM_y", r "0.0" 0.0), ("CoM_z", r "-0.085" (-0.085)), ("Ixx", r "0.01" 0.01), ("Ixy", r "0.0" 0.0), ("Ixz", r "0.0" 0.0), ("Iyy",
    r "0.01" 0.01), ("Iyz", r "0.0" 0.0), ("Izz", r "0.01" 0.01)]),
      ("friction", m [("symb", .seq [I]), ("Dl", .seq [r "0.1" 0.1])])]),
    ("link2", m [("inertial", m [("symb", .seq [I, I, I, I, I, I, I, I, I, I]), ("mass", r "0.6" 0.6), ("CoM_x", r "0.0" 0.0), ("CoM_y",
      r "0.0" 0.0), ("CoM_z", r "0.0" 0.0), ("Ixx", r "0.01" 0.01), ("Ixy", r "0.0" 0.0), ("Ixz", r "0.0" 0.0), ("Iyy", r "0.01" 0.01), ("Iyz",
      r "0.0" 0.0), ("Izz", r "0.01" 0.01)]),
      ("friction", m [("symb", .seq [I]), ("Dl", .seq [r "0.1" 0.1])])]),
    ("link3", m [("inertial", m [("symb", .seq [I, I, I, I, I, I, I, I, I, I]), ("mass", r "0.6" 0.6), ("CoM_x", r "0.0" 0.0), ("CoM_y",
      r "0.0" 0.0), ("CoM_z", r "-0.1" (-0.1)), ("Ixx", r "0.01" 0.01), ("Ixy", r "0.0" 0.0), ("Ixz", r "0.0" 0.0), ("Iyy", r "0.01" 0.01), ("Iyz",
      r "0.0" 0.0), ("Izz", r "0.01" 0.01)]),
      ("friction", m [("symb", .seq [I]), ("Dl", .seq [r "0.1" 0.1])])]),
    ("link4", m [("inertial", m [("symb", .seq [I, I, I, I, I, I, I, I, I, I]), ("mass", r "0.6" 0.6), ("CoM_x", r "0.0" 0.0), ("CoM_y",
      r "0.0" 0.0), ("CoM_z", r "0.0" 0.0), ("Ixx", r "0.01" 0.01), ("Ixy", r "0.0" 0.0), ("Ixz", r "0.0" 0.0), ("Iyy", r "0.01" 0.01), ("Iyz",
      r "0.0" 0.0), ("Izz", r "0.01" 0.01)]),
      ("friction", m [("symb", .seq [I]), ("Dl", .seq [r "0.1" 0.1])])]),
    ("link5", m [("inertial", m [("symb", .seq [I, I, I, I, I, I, I, I, I, I]), ("mass", r "1.0" 1.0), ("CoM_x", r "0.0" 0.0), ("CoM_y",
      r "0.0" 0.0), ("CoM_z", r "0.15" 0.15), ("Ixx", r "0.01" 0.01), ("Ixy", r "0.0" 0.0), ("Ixz", r "0.0" 0.0), ("Iyy", r "0.01" 0.01), ("Iyz",
      r "0.0" 0.0), ("Izz", r "0.01" 0.01)]),
      ("friction", m [("symb", .seq [I]), ("Dl", .seq [r "0.1" 0.1])])])]),
  ("elastic", m [("K_order", z "3" 3 3),
    ("D_order", O),
    ("Dm_order", z "2" 2 2),
    ("joints", m [("joint1", m [("K", .seq [r "2.5" 2.5, r "0.0" 0.0, r "50.0" 50.0]), ("D", .seq []), ("Dm", .seq [z "10" 10 10, r "0.1" 0.1]),
      ("Mm", r "0.1" 0.1), ("K_symb", .seq [I, I, I]), ("D_symb", .seq []), ("Dm_symb", .seq [I, I]), ("Mm_symb", I)]),
      ("joint2", m [("K", .seq [r "2.5" 2.5, r "0.0" 0.0, r "50.0" 50.0]), ("D", .seq []), ("Dm", .seq [z "10" 10 10, r "0.1" 0.1]), ("Mm",
        r "0.1" 0.1), ("K_symb", .seq [I, I, I]), ("D_symb", .seq []), ("Dm_symb", .seq [I, I]), ("Mm_symb", I)]),
      ("joint3", m [("K", .seq [r "2.5" 2.5, r "0.0" 0.0, r "50.0" 50.0]), ("D", .seq []), ("Dm", .seq [z "10" 10 10, r "0.1" 0.1]), ("Mm",
        r "0.1" 0.1), ("K_symb", .seq [I, I, I]), ("D_symb", .seq []), ("Dm_symb", .seq [I, I]), ("Mm_symb", I)]),
      ("joint4", m [("K", .seq [r "2.5" 2.5, r "0.0" 0.0, r "50.0" 50.0]), ("D", .seq []), ("Dm", .seq [z "10" 10 10, r "0.1" 0.1]), ("Mm",
        r "0.1" 0.1), ("K_symb", .seq [I, I, I]), ("D_symb", .seq []), ("Dm_symb", .seq [I, I]), ("Mm_symb", I)]),
      ("joint5", m [("K", .seq [r "2.5" 2.5, r "0.0" 0.0, r "50.0" 50.0]), ("D", .seq []), ("Dm", .seq [z "10" 10 10, r "0.1" 0.1]), ("Mm",
        r "0.1" 0.1), ("K_symb", .seq [I, I, I]), ("D_symb", .seq []), ("Dm_symb", .seq [I, I]), ("Mm_symb", I)])])])]

/-- `src/thunder/robots/franka/franka.yaml`. -/
def franka : Yaml := m [
  ("version", r "0.2" 0.2),
  ("PI_2", r "1.5707963267948966" 1.5707963267948966),
  ("PI_2_neg", r "-1.5707963267948966" (-1.5707963267948966)),
  ("PI_4_neg", r "-0.7853981633974483" (-0.7853981633974483)),
  ("num_joints", z "7" 7 7),
  ("Dl_order", z "2" 2 2),
  ("type_joints", .seq [w "R", w "R", w "R", w "R", w "R", w "R", w "R"]),
  ("kinematics", m [("symb", .seq [O, O, O, O, O, O, O, O, O, O, O, O, O, O, O, O, O, O, O, O, O, O, O, O, O, O, O, O]), ("DH", .seq [O, O,
    r "0.3330" 0.3330, O, O, r "-1.5707963267948966" (-1.5707963267948966), O, O, O, r "1.5707963267948966" 1.5707963267948966, r "0.3160" 0.3160, O,
    r "0.0825" 0.0825, r "1.5707963267948966" 1.5707963267948966, O, O, r "-0.0825" (-0.0825), r "-1.5707963267948966" (-1.5707963267948966),
    r "0.384" 0.384, O, O, r "1.5707963267948966" 1.5707963267948966, O, O, r "0.088" 0.088, r "1.5707963267948966" 1.5707963267948966,
    r "0.107" 0.107, O])]),
  ("gravity", m [("symb", .seq [O, O, O]), ("value", .seq [O, O, r "-9.81" (-9.81)])]),
  ("Base_to_L0", m [("symb", .seq [O, O, O, O, O, O]), ("tr", .seq [O, O, O]), ("ypr", .seq [O, O, O])]),
  ("Ln_to_EE", m [("symb", .seq [I, I, I, O, O, O]), ("tr", .seq [O, O, O]), ("ypr", .seq [O, O, O])]),
  ("dynamics", m [("link1", m [("inertial", m [("symb", .seq [I, I, I, I, I, I, I, I, I, I]), ("mass", r "4.970684" 4.970684), ("CoM_x",
    r "3.875e-3" 3.875e-3), ("CoM_y", r "2.081e-3" 2.081e-3), ("CoM_z", r "-4.762e-2" (-4.762e-2)), ("Ixx", r "7.0337e-1" 7.0337e-1), ("Iyy",
    r "7.0661e-1" 7.0661e-1), ("Izz", r "9.1170e-3" 9.1170e-3), ("Ixy", r "-1.3900e-4" (-1.3900e-4)), ("Ixz", r "6.7720e-3" 6.7720e-3), ("Iyz",
    r "1.9169e-2" 1.9169e-2)]),
      ("friction", m [("symb", .seq [I, I]), ("Dl", .seq [r "0.1" 0.1, r "0.01" 0.01])])]),
    ("link2", m [("inertial", m [("symb", .seq [I, I, I, I, I, I, I, I, I, I]), ("mass", r "0.646926" 0.646926), ("CoM_x",
      r "-3.141e-3" (-3.141e-3)), ("CoM_y", r "-2.872e-2" (-2.872e-2)), ("CoM_z", r "3.495e-3" 3.495e-3), ("Ixx", r "7.9620e-3" 7.9620e-3), ("Iyy",
      r "2.8110e-02" 2.8110e-02), ("Izz", r "2.5995e-02" 2.5995e-02), ("Ixy", r "-3.9250e-3" (-3.9250e-3)), ("Ixz", r "1.0254e-02" 1.0254e-02),
      ("Iyz", r "7.0400e-04" 7.0400e-04)]),
      ("friction", m [("symb", .seq [I, I]), ("Dl", .seq [r "0.1" 0.1, r "0.01" 0.01])])]),
    ("link3", m [("inertial", m [("symb", .seq [I, I, I, I, I, I, I, I, I, I]), ("mass", r "3.228604" 3.228604), ("CoM_x",
      r "2.7518e-02" 2.7518e-02), ("CoM_y", r "3.9252e-02" 3.9252e-02), ("CoM_z", r "-6.6502e-02" (-6.6502e-02)), ("Ixx", r "3.7242e-02" 3.7242e-02),
      ("Iyy", r "3.6155e-02" 3.6155e-02), ("Izz", r "1.0830e-02" 1.0830e-02), ("Ixy", r "-4.7610e-03" (-4.7610e-03)), ("Ixz",
      r "-1.1396e-02" (-1.1396e-02)), ("Iyz", r "-1.2805e-02" (-1.2805e-02))]),
      ("friction", m [("symb", .seq [I, I]), ("Dl", .seq [r "0.1" 0.1, r "0.01" 0.01])])]),
    ("link4", m [("inertial", m [("symb", .seq [I, I, I, I, I, I, I, I, I, I]), ("mass", r "3.587895" 3.587895), ("CoM_x",
      r "-5.317e-02" (-5.317e-02)), ("CoM_y", r "1.04419e-01" 1.04419e-01), ("CoM_z", r "2.7454e-02" 2.7454e-02), ("Ixx", r "2.5853e-02" 2.5853e-02),
      ("Iyy", r "1.9552e-02" 1.9552e-02), ("Izz", r "2.8323e-02" 2.8323e-02), ("Ixy", r "7.7960e-03" 7.7960e-03), ("Ixz",
      r "-1.3320e-03" (-1.3320e-03)), ("Iyz", r "8.6410e-03" 8.6410e-03)]),
      ("friction", m [("symb", .seq [I, I]), ("Dl", .seq [r "0.1" 0.1, r "0.01" 0.01])])]),
    ("link5", m [("inertial", m [("symb", .seq [I, I, I, I, I, I, I, I, I, I]), ("mass", r "1.225946" 1.225946), ("CoM_x",
      r "-1.1953e-02" (-1.1953e-02)), ("CoM_y", r "4.1065e-02" 4.1065e-02), ("CoM_z", r "-3.8437e-02" (-3.8437e-02)), ("Ixx",
      r "3.5549e-02" 3.5549e-02), ("Iyy", r "2.9474e-02" 2.9474e-02), ("Izz", r "8.6270e-03" 8.6270e-03), ("Ixy", r "-2.1170e-03" (-2.1170e-03)),
      ("Ixz", r "-4.0370e-03" (-4.0370e-03)), ("Iyz", r "2.2900e-04" 2.2900e-04)]),
      ("friction", m [("symb", .seq [I, I]), ("Dl", .seq [r "0.1" 0.1, r "0.01" 0.01])])]),
    ("link6", m [("inertial", m [("symb", .seq [I, I, I, I, I, I, I, I, I, I]), ("mass", r "1.666555" 1.666555), ("CoM_x",
      r "6.0149e-02" 6.0149e-02), ("CoM_y", r "-1.4117e-02" (-1.4117e-02)), ("CoM_z", r "-1.0517e-02" (-1.0517e-02)), ("Ixx",
      r "1.9640e-03" 1.9640e-03), ("Iyy", r "4.3540e-03" 4.3540e-03), ("Izz", r "5.4330e-03" 5.4330e-03), ("Ixy", r "1.0900e-04" 1.0900e-04), ("Ixz",
      r "-1.1580e-03" (-1.1580e-03)), ("Iyz", r "3.4100e-04" 3.4100e-04)]),
      ("friction", m [("symb", .seq [I, I]), ("Dl", .seq [r "0.1" 0.1, r "0.01" 0.01])])]),
    ("link7", m [("inertial", m [("symb", .seq [I, I, I, I, I, I, I, I, I, I]), ("mass", r "0.735522" 0.735522), ("CoM_x",
      r "1.0517e-02" 1.0517e-02), ("CoM_y", r "-4.252e-03" (-4.252e-03)), ("CoM_z", r "-4.5403e-02" (-4.5403e-02)), ("Ixx",
      r "1.2516e-02" 1.2516e-02), ("Ixy", r "-4.28e-04" (-4.28e-04)), ("Ixz", r "-1.196e-03" (-1.196e-03)), ("Iyy", r "1.0027e-02" 1.0027e-02),
      ("Iyz", r "-7.41e-04" (-7.41e-04)), ("Izz", r "4.815e-03" 4.815e-03)]),
      ("friction", m [("symb", .seq [I, I]), ("Dl", .seq [r "0.1" 0.1, r "0.01" 0.01])])])])]

/-- `src/thunder/robots/frankaWrist/frankaWrist.yaml`. -/
def wrist : Yaml := m [
  ("version", r "0.3" 0.3),
  ("PI_2", r "1.5707963267948966" 1.5707963267948966),
  ("PI_2_neg", r "-1.5707963267948966" (-1.5707963267948966)),
  ("PI_4_neg", r "-0.7853981633974483" (-0.7853981633974483)),
  ("ELASTIC_MODEL", b "true" true),
  ("num_joints", z "8" 8 8),
  ("Dl_order", z "2" 2 2),
  ("type_joints", .seq [w "R", w "R", w "R", w "R", w "R", w "R", w "R", w "R_SEA"]),
  ("kinematics", m [("symb", .seq [O, O, O, O, O, O, O, O, O, O, O, O, O, O, O, O, O, O, O, O, O, O, O, O, O, O, O, O, O, O, O, O]), ("DH", .seq [O,
    O, r "0.3330" 0.3330, O, O, r "-1.5707963267948966" (-1.5707963267948966), O, O, O, r "1.5707963267948966" 1.5707963267948966, r "0.3160" 0.3160,
    O, r "0.0825" 0.0825, r "1.5707963267948966" 1.5707963267948966, O, O, r "-0.0825" (-0.0825), r "-1.5707963267948966" (-1.5707963267948966),
    r "0.384" 0.384, O, O, r "1.5707963267948966" 1.5707963267948966, O, O, r "0.088" 0.088, r "1.5707963267948966" 1.5707963267948966,
    r "0.161" 0.161, O, r "0.10" 0.10, r "1.5707963267948966" 1.5707963267948966, O, O])]),
  ("gravity", m [("symb", .seq [O, O, O]), ("value", .seq [O, O, r "-9.81" (-9.81)])]),
  ("Base_to_L0", m [("symb", .seq [O, O, O, O, O, O]), ("tr", .seq [O, O, O]), ("ypr", .seq [O, O, O])]),
  ("Ln_to_EE", m [("symb", .seq [I, I, I, O, O, O]), ("tr", .seq [O, O, O]), ("ypr", .seq [O, O, O])]),
  ("dynamics", m [("link1", m [("inertial", m [("symb", .seq [O, O, O, O, O, O, O, O, O, O]), ("mass", r "4.970684" 4.970684), ("CoM_x",
    r "3.875e-3" 3.875e-3), ("CoM_y", r "2.081e-3" 2.081e-3), ("CoM_z", r "-4.762e-2" (-4.762e-2)), ("Ixx", r "7.0337e-1" 7.0337e-1), ("Iyy",
    r "7.0661e-1" 7.0661e-1), ("Izz", r "9.1170e-3" 9.1170e-3), ("Ixy", r "-1.3900e-4" (-1.3900e-4)), ("Ixz", r "6.7720e-3" 6.7720e-3), ("Iyz",
    r "1.9169e-2" 1.9169e-2)]),
      ("friction", m [("symb", .seq [I, I]), ("Dl", .seq [r "0.1" 0.1, r "0.01" 0.01])])]),
    ("link2", m [("inertial", m [("symb", .seq [O, O, O, O, O, O, O, O, O, O]), ("mass", r "0.646926" 0.646926), ("CoM_x",
      r "-3.141e-3" (-3.141e-3)), ("CoM_y", r "-2.872e-2" (-2.872e-2)), ("CoM_z", r "3.495e-3" 3.495e-3), ("Ixx", r "7.9620e-3" 7.9620e-3), ("Iyy",
      r "2.8110e-02" 2.8110e-02), ("Izz", r "2.5995e-02" 2.5995e-02), ("Ixy", r "-3.9250e-3" (-3.9250e-3)), ("Ixz", r "1.0254e-02" 1.0254e-02),
      ("Iyz", r "7.0400e-04" 7.0400e-04)]),
      ("friction", m [("symb", .seq [I, I]), ("Dl", .seq [r "0.1" 0.1, r "0.01" 0.01])])]),
    ("link3", m [("inertial", m [("symb", .seq [O, O, O, O, O, O, O, O, O, O]), ("mass", r "3.228604" 3.228604), ("CoM_x",
      r "2.7518e-02" 2.7518e-02), ("CoM_y", r "3.9252e-02" 3.9252e-02), ("CoM_z", r "-6.6502e-02" (-6.6502e-02)), ("Ixx", r "3.7242e-02" 3.7242e-02),
      ("Iyy", r "3.6155e-02" 3.6155e-02), ("Izz", r "1.0830e-02" 1.0830e-02), ("Ixy", r "-4.7610e-03" (-4.7610e-03)), ("Ixz",
      r "-1.1396e-02" (-1.1396e-02)), ("Iyz", r "-1.2805e-02" (-1.2805e-02))]),
      ("friction", m [("symb", .seq [I, I]), ("Dl", .seq [r "0.1" 0.1, r "0.01" 0.01])])]),
    ("link4", m [("inertial", m [("symb", .seq [O, O, O, O, O, O, O, O, O, O]), ("mass", r "3.587895" 3.587895), ("CoM_x",
      r "-5.317e-02" (-5.317e-02)), ("CoM_y", r "1.04419e-01" 1.04419e-01), ("CoM_z", r "2.7454e-02" 2.7454e-02), ("Ixx", r "2.5853e-02" 2.5853e-02),
      ("Iyy", r "1.9552e-02" 1.9552e-02), ("Izz", r "2.8323e-02" 2.8323e-02), ("Ixy", r "7.7960e-03" 7.7960e-03), ("Ixz",
      r "-1.3320e-03" (-1.3320e-03)), ("Iyz", r "8.6410e-03" 8.6410e-03)]),
      ("friction", m [("symb", .seq [I, I]), ("Dl", .seq [r "0.1" 0.1, r "0.01" 0.01])])]),
    ("link5", m [("inertial", m [("symb", .seq [O, O, O, O, O, O, O, O, O, O]), ("mass", r "1.225946" 1.225946), ("CoM_x",
      r "-1.1953e-02" (-1.1953e-02)), ("CoM_y", r "4.1065e-02" 4.1065e-02), ("CoM_z", r "-3.8437e-02" (-3.8437e-02)), ("Ixx",
      r "3.5549e-02" 3.5549e-02), ("Iyy", r "2.9474e-02" 2.9474e-02), ("Izz", r "8.6270e-03" 8.6270e-03), ("Ixy", r "-2.1170e-03" (-2.1170e-03)),
      ("Ixz", r "-4.0370e-03" (-4.0370e-03)), ("Iyz", r "2.2900e-04" 2.2900e-04)]),
      ("friction", m [("symb", .seq [I, I]), ("Dl", .seq [r "0.1" 0.1, r "0.01" 0.01])])]),
    ("link6", m [("inertial", m [("symb", .seq [O, O, O, O, O, O, O, O, O, O]), ("mass", r "1.666555" 1.666555), ("CoM_x",
      r "6.0149e-02" 6.0149e-02), ("CoM_y", r "-1.4117e-02" (-1.4117e-02)), ("CoM_z", r "-1.0517e-02" (-1.0517e-02)), ("Ixx",
      r "1.9640e-03" 1.9640e-03), ("Iyy", r "4.3540e-03" 4.3540e-03), ("Izz", r "5.4330e-03" 5.4330e-03), ("Ixy", r "1.0900e-04" 1.0900e-04), ("Ixz",
      r "-1.1580e-03" (-1.1580e-03)), ("Iyz", r "3.4100e-04" 3.4100e-04)]),
      ("friction", m [("symb", .seq [I, I]), ("Dl", .seq [r "0.1" 0.1, r "0.01" 0.01])])]),
    ("link7", m [("inertial", m [("symb", .seq [O, O, O, O, O, O, O, O, O, O]), ("mass", r "1.66560124" 1.66560124), ("CoM_x", r "0.0292" 0.0292),
      ("CoM_y", r "0.0069" 0.0069), ("CoM_z", r "-0.0413" (-0.0413)), ("Ixx", r "1.2516e-02" 1.2516e-02), ("Iyy", r "1.0027e-02" 1.0027e-02), ("Izz",
      r "4.8150e-03" 4.8150e-03), ("Ixy", r "-4.2800e-04" (-4.2800e-04)), ("Ixz", r "-1.1960e-03" (-1.1960e-03)), ("Iyz",
      r "-7.4100e-04" (-7.4100e-04))]),
      ("friction", m [("symb", .seq [I, I]), ("Dl", .seq [r "0.1" 0.1, r "0.01" 0.01])])]),
    ("link8", m [("inertial", m [("symb", .seq [O, O, O, O, O, O, O, O, O, O]), ("mass", r "0.86" 0.86), ("CoM_x", r "0.05" 0.05), ("CoM_y",
      r "0.0" 0.0), ("CoM_z", r "0.0" 0.0), ("Ixx", r "0.001" 0.001), ("Iyy", r "0.001" 0.001), ("Izz", r "0.001" 0.001), ("Ixy", O), ("Ixz", O),
      ("Iyz", O)]),
      ("friction", m [("symb", .seq [I, I]), ("Dl", .seq [r "0.1" 0.1, r "0.01" 0.01])])])]),
  ("elastic", m [("K_order", I),
    ("D_order", O),
    ("Dm_order", z "2" 2 2),
    ("joints", m [("joint1", m [("K", .seq [r "2.5" 2.5]), ("D", .seq []), ("Dm", .seq [z "10" 10 10, r "0.1" 0.1]), ("Mm", r "0.1" 0.1), ("K_symb",
      .seq [I]), ("D_symb", .seq []), ("Dm_symb", .seq [I, I]), ("Mm_symb", I)])])])]

/-- `src/thunder/robots/bifrank/lewis.yaml`. -/
def lewis : Yaml := m [
  ("version", r "0.2" 0.2),
  ("PI_2", r "1.5707963267948966" 1.5707963267948966),
  ("PI_2_neg", r "-1.5707963267948966" (-1.5707963267948966)),
  ("PI_4", r "0.7853981633974483" 0.7853981633974483),
  ("PI_4_neg", r "-0.7853981633974483" (-0.7853981633974483)),
  ("num_joints", z "8" 8 8),
  ("Dl_order", z "2" 2 2),
  ("type_joints", .seq [w "R", w "R", w "R", w "R", w "R", w "R", w "R", w "R"]),
  ("kinematics", m [("symb", .seq [O, O, O, O, O, O, O, O, O, O, O, O, O, O, O, O, O, O, O, O, O, O, O, O, O, O, O, O, O, O, O, O]), ("DH", .seq [O,
    O, r "0.04" 0.04, O, O, r "-0.9" (-0.9), r "0.4430" 0.4430, r "-0.15" (-0.15), O, r "-1.5707963267948966" (-1.5707963267948966), O, O, O,
    r "1.5707963267948966" 1.5707963267948966, r "0.3160" 0.3160, O, r "0.0825" 0.0825, r "1.5707963267948966" 1.5707963267948966, O, O,
    r "-0.0825" (-0.0825), r "-1.5707963267948966" (-1.5707963267948966), r "0.384" 0.384, O, O, r "1.5707963267948966" 1.5707963267948966, O, O,
    r "0.088" 0.088, r "1.5707963267948966" 1.5707963267948966, r "0.107" 0.107, O])]),
  ("gravity", m [("symb", .seq [O, O, O]), ("value", .seq [O, O, r "-9.81" (-9.81)])]),
  ("Base_to_L0", m [("symb", .seq [I, I, I, O, O, O]), ("tr", .seq [O, O, O]), ("ypr", .seq [O, O, O])]),
  ("Ln_to_EE", m [("symb", .seq [I, I, I, O, O, O]), ("tr", .seq [O, O, O]), ("ypr", .seq [O, O, O])]),
  ("dynamics", m [("link1", m [("inertial", m [("symb", .seq [I, I, I, I, I, I, I, I, I, I]), ("mass", r "5.43" 5.43), ("CoM_x",
    r "-0.041018" (-0.041018)), ("CoM_y", r "0.049974" 0.049974), ("CoM_z", r "0.2" 0.2), ("Ixx", r "0.00315" 0.00315), ("Iyy", r "0.00388" 0.00388),
    ("Izz", r "0.004285" 0.004285), ("Ixy", r "8.2904E-07" 8.2904E-07), ("Ixz", r "0.00015" 0.00015), ("Iyz", r "8.2299E-06" 8.2299E-06)]),
      ("friction", m [("symb", .seq [I, I]), ("Dl", .seq [r "0.1" 0.1, r "0.01" 0.01])])]),
    ("link2", m [("inertial", m [("symb", .seq [I, I, I, I, I, I, I, I, I, I]), ("mass", r "2.9274653454" 2.9274653454), ("CoM_x",
      r "0.0000004128" 0.0000004128), ("CoM_y", r "-0.0181251324" (-0.0181251324)), ("CoM_z", r "-0.0386035970" (-0.0386035970)), ("Ixx",
      r "0.0239273164851079" 0.0239273164851079), ("Ixy", r "0.0000133179034557" 0.0000133179034557), ("Ixz",
      r "-0.000114047749186" (-0.000114047749186)), ("Iyy", r "0.0224821613275756" 0.0224821613275756), ("Iyz",
      r "-0.001995032062824" (-0.001995032062824)), ("Izz", r "0.0063500982585300" 0.0063500982585300)]),
      ("friction", m [("symb", .seq [I, I]), ("Dl", .seq [r "0.1" 0.1, r "0.01" 0.01])])]),
    ("link3", m [("inertial", m [("symb", .seq [I, I, I, I, I, I, I, I, I, I]), ("mass", r "2.9355370338" 2.9355370338), ("CoM_x",
      r "0.0031828864" 0.0031828864), ("CoM_y", r "-0.0743221644" (-0.0743221644)), ("CoM_z", r "0.0088146084" 0.0088146084), ("Ixx",
      r "0.0419389462576094" 0.0419389462576094), ("Ixy", r "0.0002025733152109" 0.0002025733152109), ("Ixz",
      r "0.0040777842271799" 0.0040777842271799), ("Iyy", r "0.0251451488501472" 0.0251451488501472), ("Iyz",
      r "-0.004225215800657" (-0.004225215800657)), ("Izz", r "0.0617021447288883" 0.0617021447288883)]),
      ("friction", m [("symb", .seq [I, I]), ("Dl", .seq [r "0.1" 0.1, r "0.01" 0.01])])]),
    ("link4", m [("inertial", m [("symb", .seq [I, I, I, I, I, I, I, I, I, I]), ("mass", r "2.2449013699" 2.2449013699), ("CoM_x",
      r "0.0407015686" 0.0407015686), ("CoM_y", r "-0.0048200565" (-0.0048200565)), ("CoM_z", r "-0.0289730823" (-0.0289730823)), ("Ixx",
      r "0.0241014254724088" 0.0241014254724088), ("Ixy", r "0.0024046945590421" 0.0024046945590421), ("Ixz",
      r "-0.002856269270114" (-0.002856269270114)), ("Iyy", r "0.0197405326670817" 0.0197405326670817), ("Iyz",
      r "-0.002104212683891" (-0.002104212683891)), ("Izz", r "0.0190444944822448" 0.0190444944822448)]),
      ("friction", m [("symb", .seq [I, I]), ("Dl", .seq [r "0.1" 0.1, r "0.01" 0.01])])]),
    ("link5", m [("inertial", m [("symb", .seq [I, I, I, I, I, I, I, I, I, I]), ("mass", r "2.6155955791" 2.6155955791), ("CoM_x",
      r "-0.0459100965" (-0.0459100965)), ("CoM_y", r "0.0630492960" 0.0630492960), ("CoM_z", r "-0.0085187868" (-0.0085187868)), ("Ixx",
      r "0.0345299832191320" 0.0345299832191320), ("Ixy", r "0.0132255226598281" 0.0132255226598281), ("Ixz",
      r "0.0101514299848411" 0.0101514299848411), ("Iyy", r "0.0288816219330490" 0.0288816219330490), ("Iyz",
      r "-0.000976283387070" (-0.000976283387070)), ("Izz", r "0.0412547117114664" 0.0412547117114664)]),
      ("friction", m [("symb", .seq [I, I]), ("Dl", .seq [r "0.1" 0.1, r "0.01" 0.01])])]),
    ("link6", m [("inertial", m [("symb", .seq [I, I, I, I, I, I, I, I, I, I]), ("mass", r "2.3271207594" 2.3271207594), ("CoM_x",
      r "-0.0016039605" (-0.0016039605)), ("CoM_y", r "0.0292536262" 0.0292536262), ("CoM_z", r "-0.0972965990" (-0.0972965990)), ("Ixx",
      r "0.0516102784636628" 0.0516102784636628), ("Ixy", r "-0.005715173387783" (-0.005715173387783)), ("Ixz",
      r "-0.003567316762587" (-0.003567316762587)), ("Iyy", r "0.0478772971337148" 0.0478772971337148), ("Iyz",
      r "0.0106739851085359" 0.0106739851085359), ("Izz", r "0.0164236255793572" 0.0164236255793572)]),
      ("friction", m [("symb", .seq [I, I]), ("Dl", .seq [r "0.1" 0.1, r "0.01" 0.01])])]),
    ("link7", m [("inertial", m [("symb", .seq [I, I, I, I, I, I, I, I, I, I]), ("mass", r "1.8170376524" 1.8170376524), ("CoM_x",
      r "0.0597131221" 0.0597131221), ("CoM_y", r "-0.0410294666" (-0.0410294666)), ("CoM_z", r "-0.0101692726" (-0.0101692726)), ("Ixx",
      r "0.0054123335943834" 0.0054123335943834), ("Ixy", r "0.0061934563602858" 0.0061934563602858), ("Ixz",
      r "0.0014219289306117" 0.0014219289306117), ("Iyy", r "0.0140583295455099" 0.0140583295455099), ("Iyz",
      r "-0.001314075374112" (-0.001314075374112)), ("Izz", r "0.0160808179242125" 0.0160808179242125)]),
      ("friction", m [("symb", .seq [I, I]), ("Dl", .seq [r "0.1" 0.1, r "0.01" 0.01])])]),
    ("link8", m [("inertial", m [("symb", .seq [I, I, I, I, I, I, I, I, I, I]), ("mass", r "0.6271432862" 0.6271432862), ("CoM_x",
      r "0.0045225817" 0.0045225817), ("CoM_y", r "0.0086261921" 0.0086261921), ("CoM_z", r "-0.0161633251" (-0.0161633251)), ("Ixx",
      r "0.0002109238915010" 0.0002109238915010), ("Ixy", r "-0.000024332991144" (-0.000024332991144)), ("Ixz",
      r "0.0000456448039377" 0.0000456448039377), ("Iyy", r "0.0001771856800241" 0.0001771856800241), ("Iyz",
      r "0.0000874407022322" 0.0000874407022322), ("Izz", r "0.0000599319059965" 0.0000599319059965)]),
      ("friction", m [("symb", .seq [I, I]), ("Dl", .seq [r "0.1" 0.1, r "0.01" 0.01])])])])]

/-- `src/thunder/robots/bifrank/richard.yaml`. -/
def richard : Yaml := m [
  ("version", r "0.2" 0.2),
  ("PI_2", r "1.5707963267948966" 1.5707963267948966),
  ("PI_2_neg", r "-1.5707963267948966" (-1.5707963267948966)),
  ("PI_4", r "0.7853981633974483" 0.7853981633974483),
  ("PI_4_neg", r "-0.7853981633974483" (-0.7853981633974483)),
  ("num_joints", z "8" 8 8),
  ("Dl_order", z "2" 2 2),
  ("type_joints", .seq [w "R", w "R", w "R", w "R", w "R", w "R", w "R", w "R"]),
  ("kinematics", m [("symb", .seq [O, O, O, O, O, O, O, O, O, O, O, O, O, O, O, O, O, O, O, O, O, O, O, O, O, O, O, O, O, O, O, O]), ("DH", .seq [O,
    O, r "0.04" 0.04, O, O, r "0.9" 0.9, r "0.4430" 0.4430, r "0.15" 0.15, O, r "-1.5707963267948966" (-1.5707963267948966), O, O, O,
    r "1.5707963267948966" 1.5707963267948966, r "0.3160" 0.3160, O, r "0.0825" 0.0825, r "1.5707963267948966" 1.5707963267948966, O, O,
    r "-0.0825" (-0.0825), r "-1.5707963267948966" (-1.5707963267948966), r "0.384" 0.384, O, O, r "1.5707963267948966" 1.5707963267948966, O, O,
    r "0.088" 0.088, r "1.5707963267948966" 1.5707963267948966, r "0.107" 0.107, O])]),
  ("gravity", m [("symb", .seq [O, O, O]), ("value", .seq [O, O, r "-9.81" (-9.81)])]),
  ("Base_to_L0", m [("symb", .seq [I, I, I, O, O, O]), ("tr", .seq [O, O, O]), ("ypr", .seq [O, O, O])]),
  ("Ln_to_EE", m [("symb", .seq [I, I, I, O, O, O]), ("tr", .seq [O, O, O]), ("ypr", .seq [O, O, O])]),
  ("dynamics", m [("link1", m [("inertial", m [("symb", .seq [I, I, I, I, I, I, I, I, I, I]), ("mass", r "5.43" 5.43), ("CoM_x",
    r "-0.041018" (-0.041018)), ("CoM_y", r "0.049974" 0.049974), ("CoM_z", r "0.2" 0.2), ("Ixx", r "0.00315" 0.00315), ("Iyy", r "0.00388" 0.00388),
    ("Izz", r "0.004285" 0.004285), ("Ixy", r "8.2904E-07" 8.2904E-07), ("Ixz", r "0.00015" 0.00015), ("Iyz", r "8.2299E-06" 8.2299E-06)]),
      ("friction", m [("symb", .seq [I, I]), ("Dl", .seq [r "0.1" 0.1, r "0.01" 0.01])])]),
    ("link2", m [("inertial", m [("symb", .seq [I, I, I, I, I, I, I, I, I, I]), ("mass", r "2.9274653454" 2.9274653454), ("CoM_x",
      r "0.0000004128" 0.0000004128), ("CoM_y", r "-0.0181251324" (-0.0181251324)), ("CoM_z", r "-0.0386035970" (-0.0386035970)), ("Ixx",
      r "0.0239273164851079" 0.0239273164851079), ("Ixy", r "0.0000133179034557" 0.0000133179034557), ("Ixz",
      r "-0.000114047749186" (-0.000114047749186)), ("Iyy", r "0.0224821613275756" 0.0224821613275756), ("Iyz",
      r "-0.001995032062824" (-0.001995032062824)), ("Izz", r "0.0063500982585300" 0.0063500982585300)]),
      ("friction", m [("symb", .seq [I, I]), ("Dl", .seq [r "0.1" 0.1, r "0.01" 0.01])])]),
    ("link3", m [("inertial", m [("symb", .seq [I, I, I, I, I, I, I, I, I, I]), ("mass", r "2.9355370338" 2.9355370338), ("CoM_x",
      r "0.0031828864" 0.0031828864), ("CoM_y", r "-0.0743221644" (-0.0743221644)), ("CoM_z", r "0.0088146084" 0.0088146084), ("Ixx",
      r "0.0419389462576094" 0.0419389462576094), ("Ixy", r "0.0002025733152109" 0.0002025733152109), ("Ixz",
      r "0.0040777842271799" 0.0040777842271799), ("Iyy", r "0.0251451488501472" 0.0251451488501472), ("Iyz",
      r "-0.004225215800657" (-0.004225215800657)), ("Izz", r "0.0617021447288883" 0.0617021447288883)]),
      ("friction", m [("symb", .seq [I, I]), ("Dl", .seq [r "0.1" 0.1, r "0.01" 0.01])])]),
    ("link4", m [("inertial", m [("symb", .seq [I, I, I, I, I, I, I, I, I, I]), ("mass", r "2.2449013699" 2.2449013699), ("CoM_x",
      r "0.0407015686" 0.0407015686), ("CoM_y", r "-0.0048200565" (-0.0048200565)), ("CoM_z", r "-0.0289730823" (-0.0289730823)), ("Ixx",
      r "0.0241014254724088" 0.0241014254724088), ("Ixy", r "0.0024046945590421" 0.0024046945590421), ("Ixz",
      r "-0.002856269270114" (-0.002856269270114)), ("Iyy", r "0.0197405326670817" 0.0197405326670817), ("Iyz",
      r "-0.002104212683891" (-0.002104212683891)), ("Izz", r "0.0190444944822448" 0.0190444944822448)]),
      ("friction", m [("symb", .seq [I, I]), ("Dl", .seq [r "0.1" 0.1, r "0.01" 0.01])])]),
    ("link5", m [("inertial", m [("symb", .seq [I, I, I, I, I, I, I, I, I, I]), ("mass", r "2.6155955791" 2.6155955791), ("CoM_x",
      r "-0.0459100965" (-0.0459100965)), ("CoM_y", r "0.0630492960" 0.0630492960), ("CoM_z", r "-0.0085187868" (-0.0085187868)), ("Ixx",
      r "0.0345299832191320" 0.0345299832191320), ("Ixy", r "0.0132255226598281" 0.0132255226598281), ("Ixz",
      r "0.0101514299848411" 0.0101514299848411), ("Iyy", r "0.0288816219330490" 0.0288816219330490), ("Iyz",
      r "-0.000976283387070" (-0.000976283387070)), ("Izz", r "0.0412547117114664" 0.0412547117114664)]),
      ("friction", m [("symb", .seq [I, I]), ("Dl", .seq [r "0.1" 0.1, r "0.01" 0.01])])]),
    ("link6", m [("inertial", m [("symb", .seq [I, I, I, I, I, I, I, I, I, I]), ("mass", r "2.3271207594" 2.3271207594), ("CoM_x",
      r "-0.0016039605" (-0.0016039605)), ("CoM_y", r "0.0292536262" 0.0292536262), ("CoM_z", r "-0.0972965990" (-0.0972965990)), ("Ixx",
      r "0.0516102784636628" 0.0516102784636628), ("Ixy", r "-0.005715173387783" (-0.005715173387783)), ("Ixz",
      r "-0.003567316762587" (-0.003567316762587)), ("Iyy", r "0.0478772971337148" 0.0478772971337148), ("Iyz",
      r "0.0106739851085359" 0.0106739851085359), ("Izz", r "0.0164236255793572" 0.0164236255793572)]),
      ("friction", m [("symb", .seq [I, I]), ("Dl", .seq [r "0.1" 0.1, r "0.01" 0.01])])]),
    ("link7", m [("inertial", m [("symb", .seq [I, I, I, I, I, I, I, I, I, I]), ("mass", r "1.8170376524" 1.8170376524), ("CoM_x",
      r "0.0597131221" 0.0597131221), ("CoM_y", r "-0.0410294666" (-0.0410294666)), ("CoM_z", r "-0.0101692726" (-0.0101692726)), ("Ixx",
      r "0.0054123335943834" 0.0054123335943834), ("Ixy", r "0.0061934563602858" 0.0061934563602858), ("Ixz",
      r "0.0014219289306117" 0.0014219289306117), ("Iyy", r "0.0140583295455099" 0.0140583295455099), ("Iyz",
      r "-0.001314075374112" (-0.001314075374112)), ("Izz", r "0.0160808179242125" 0.0160808179242125)]),
      ("friction", m [("symb", .seq [I, I]), ("Dl", .seq [r "0.1" 0.1, r "0.01" 0.01])])]),
    ("link8", m [("inertial", m [("symb", .seq [I, I, I, I, I, I, I, I, I, I]), ("mass", r "0.6271432862" 0.6271432862), ("CoM_x",
      r "0.0045225817" 0.0045225817), ("CoM_y", r "0.0086261921" 0.0086261921), ("CoM_z", r "-0.0161633251" (-0.0161633251)), ("Ixx",
      r "0.0002109238915010" 0.0002109238915010), ("Ixy", r "-0.000024332991144" (-0.000024332991144)), ("Ixz",
      r "0.0000456448039377" 0.0000456448039377), ("Iyy", r "0.0001771856800241" 0.0001771856800241), ("Iyz",
      r "0.0000874407022322" 0.0000874407022322), ("Izz", r "0.0000599319059965" 0.0000599319059965)]),
      ("friction", m [("symb", .seq [I, I]), ("Dl", .seq [r "0.1" 0.1, r "0.01" 0.01])])])])]

/-- `src/thunder/robots/testRobots/R3.yaml`. -/
def R3 : Yaml := m [
  ("version", r "0.2" 0.2),
  ("PI_2", r "1.5707963267948966" 1.5707963267948966),
  ("PI_2_neg", r "-1.5707963267948966" (-1.5707963267948966)),
  ("num_joints", z "3" 3 3),
  ("type_joints", .seq [w "R", w "R", w "R"]),
  ("kinematics", m [("DH", .seq [O, O, I, O, O, r "1.5707963267948966" 1.5707963267948966, O, O, I, O, O, O])]),
  ("gravity", m [("symb", .seq [O, O, O]), ("value", .seq [O, O, r "-9.81" (-9.81)])]),
  ("Base_to_L0", m [("tr", .seq [O, O, O]), ("ypr", .seq [O, O, O])]),
  ("Ln_to_EE", m [("tr", .seq [I, O, O]), ("ypr", .seq [O, O, r "-1.5707963267948966" (-1.5707963267948966)])]),
  ("dynamics", m [("link1", m [("inertial", m [("symb", .seq [I, I, I, I, I, I, I, I, I, I]), ("mass", r "1.0" 1.0), ("CoM_x", r "1.0" 1.0),
    ("CoM_y", r "1.0" 1.0), ("CoM_z", r "1.0" 1.0), ("Ixx", r "1.0" 1.0), ("Ixy", r "1.0" 1.0), ("Ixz", r "1.0" 1.0), ("Iyy", r "1.0" 1.0), ("Iyz",
    r "1.0" 1.0), ("Izz", r "1.0" 1.0)])]),
    ("link2", m [("inertial", m [("symb", .seq [I, I, I, I, I, I, I, I, I, I]), ("mass", r "1.0" 1.0), ("CoM_x", r "1.0" 1.0), ("CoM_y",
      r "1.0" 1.0), ("CoM_z", r "1.0" 1.0), ("Ixx", r "1.0" 1.0), ("Ixy", r "1.0" 1.0), ("Ixz", r "1.0" 1.0), ("Iyy", r "1.0" 1.0), ("Iyz",
      r "1.0" 1.0), ("Izz", r "1.0" 1.0)])]),
    ("link3", m [("inertial", m [("symb", .seq [I, I, I, I, I, I, I, I, I, I]), ("mass", r "1.0" 1.0), ("CoM_x", r "1.0" 1.0), ("CoM_y",
      r "1.0" 1.0), ("CoM_z", r "1.0" 1.0), ("Ixx", r "1.0" 1.0), ("Ixy", r "1.0" 1.0), ("Ixz", r "1.0" 1.0), ("Iyy", r "1.0" 1.0), ("Iyz",
      r "1.0" 1.0), ("Izz", r "1.0" 1.0)])])])]

/-- `src/thunder/robots/testRobots/R5.yaml`. -/
def R5 : Yaml := m [
  ("version", r "0.2" 0.2),
  ("PI_2", r "1.5707963267948966" 1.5707963267948966),
  ("PI_2_neg", r "-1.5707963267948966" (-1.5707963267948966)),
  ("num_joints", z "5" 5 5),
  ("type_joints", .seq [w "R", w "R", w "R", w "R", w "R"]),
  ("kinematics", m [("DH", .seq [O, O, I, O, O, r "1.5707963267948966" 1.5707963267948966, O, O, O, r "-1.5707963267948966" (-1.5707963267948966), O,
    O, O, r "1.5707963267948966" 1.5707963267948966, z "2" 2 2, O, I, O, O, O])]),
  ("gravity", m [("value", .seq [O, O, r "-9.81" (-9.81)])]),
  ("Base_to_L0", m [("tr", .seq [O, O, O]), ("ypr", .seq [O, O, O])]),
  ("Ln_to_EE", m [("tr", .seq [I, O, O]), ("ypr", .seq [O, O, r "-1.5707963267948966" (-1.5707963267948966)])]),
  ("dynamics", m [("link1", m [("inertial", m [("symb", .seq [I, I, I, I, I, I, I, I, I, I]), ("mass", r "1.0" 1.0), ("CoM_x", r "1.0" 1.0),
    ("CoM_y", r "1.0" 1.0), ("CoM_z", r "1.0" 1.0), ("Ixx", r "1.0" 1.0), ("Ixy", r "1.0" 1.0), ("Ixz", r "1.0" 1.0), ("Iyy", r "1.0" 1.0), ("Iyz",
    r "1.0" 1.0), ("Izz", r "1.0" 1.0)])]),
    ("link2", m [("inertial", m [("symb", .seq [I, I, I, I, I, I, I, I, I, I]), ("mass", r "1.0" 1.0), ("CoM_x", r "1.0" 1.0), ("CoM_y",
      r "1.0" 1.0), ("CoM_z", r "1.0" 1.0), ("Ixx", r "1.0" 1.0), ("Ixy", r "1.0" 1.0), ("Ixz", r "1.0" 1.0), ("Iyy", r "1.0" 1.0), ("Iyz",
      r "1.0" 1.0), ("Izz", r "1.0" 1.0)])]),
    ("link3", m [("inertial", m [("symb", .seq [I, I, I, I, I, I, I, I, I, I]), ("mass", r "1.0" 1.0), ("CoM_x", r "1.0" 1.0), ("CoM_y",
      r "1.0" 1.0), ("CoM_z", r "1.0" 1.0), ("Ixx", r "1.0" 1.0), ("Ixy", r "1.0" 1.0), ("Ixz", r "1.0" 1.0), ("Iyy", r "1.0" 1.0), ("Iyz",
      r "1.0" 1.0), ("Izz", r "1.0" 1.0)])]),
    ("link4", m [("inertial", m [("symb", .seq [I, I, I, I, I, I, I, I, I, I]), ("mass", r "1.0" 1.0), ("CoM_x", r "1.0" 1.0), ("CoM_y",
      r "1.0" 1.0), ("CoM_z", r "1.0" 1.0), ("Ixx", r "1.0" 1.0), ("Ixy", r "1.0" 1.0), ("Ixz", r "1.0" 1.0), ("Iyy", r "1.0" 1.0), ("Iyz",
      r "1.0" 1.0), ("Izz", r "1.0" 1.0)])]),
    ("link5", m [("inertial", m [("symb", .seq [I, I, I, I, I, I, I, I, I, I]), ("mass", r "1.0" 1.0), ("CoM_x", r "1.0" 1.0), ("CoM_y",
      r "1.0" 1.0), ("CoM_z", r "1.0" 1.0), ("Ixx", r "1.0" 1.0), ("Ixy", r "1.0" 1.0), ("Ixz", r "1.0" 1.0), ("Iyy", r "1.0" 1.0), ("Iyz",
      r "1.0" 1.0), ("Izz", r "1.0" 1.0)])])])]

/-- `src/thunder/robots/testRobots/R7.yaml`. -/
def R7 : Yaml := m [
  ("version", r "0.2" 0.2),
  ("PI_2", r "1.5707963267948966" 1.5707963267948966),
  ("PI_2_neg", r "-1.5707963267948966" (-1.5707963267948966)),
  ("num_joints", z "7" 7 7),
  ("type_joints", .seq [w "R", w "R", w "R", w "R", w "R", w "R", w "R"]),
  ("kinematics", m [("DH", .seq [O, O, I, O, O, r "1.5707963267948966" 1.5707963267948966, O, O, O, r "-1.5707963267948966" (-1.5707963267948966), O,
    O, O, r "1.5707963267948966" 1.5707963267948966, z "2" 2 2, O, O, r "-1.5707963267948966" (-1.5707963267948966), O, O, O,
    r "1.5707963267948966" 1.5707963267948966, z "2" 2 2, O, I, O, O, O])]),
  ("gravity", m [("value", .seq [O, O, r "-9.81" (-9.81)])]),
  ("Base_to_L0", m [("tr", .seq [O, O, O]), ("ypr", .seq [O, O, O])]),
  ("Ln_to_EE", m [("tr", .seq [I, O, O]), ("ypr", .seq [O, O, r "-1.5707963267948966" (-1.5707963267948966)])]),
  ("dynamics", m [("link1", m [("inertial", m [("symb", .seq [I, I, I, I, I, I, I, I, I, I]), ("mass", r "1.0" 1.0), ("CoM_x", r "1.0" 1.0),
    ("CoM_y", r "1.0" 1.0), ("CoM_z", r "1.0" 1.0), ("Ixx", r "1.0" 1.0), ("Ixy", r "1.0" 1.0), ("Ixz", r "1.0" 1.0), ("Iyy", r "1.0" 1.0), ("Iyz",
    r "1.0" 1.0), ("Izz", r "1.0" 1.0)])]),
    ("link2", m [("inertial", m [("symb", .seq [I, I, I, I, I, I, I, I, I, I]), ("mass", r "1.0" 1.0), ("CoM_x", r "1.0" 1.0), ("CoM_y",
      r "1.0" 1.0), ("CoM_z", r "1.0" 1.0), ("Ixx", r "1.0" 1.0), ("Ixy", r "1.0" 1.0), ("Ixz", r "1.0" 1.0), ("Iyy", r "1.0" 1.0), ("Iyz",
      r "1.0" 1.0), ("Izz", r "1.0" 1.0)])]),
    ("link3", m [("inertial", m [("symb", .seq [I, I, I, I, I, I, I, I, I, I]), ("mass", r "1.0" 1.0), ("CoM_x", r "1.0" 1.0), ("CoM_y",
      r "1.0" 1.0), ("CoM_z", r "1.0" 1.0), ("Ixx", r "1.0" 1.0), ("Ixy", r "1.0" 1.0), ("Ixz", r "1.0" 1.0), ("Iyy", r "1.0" 1.0), ("Iyz",
      r "1.0" 1.0), ("Izz", r "1.0" 1.0)])]),
    ("link4", m [("inertial", m [("symb", .seq [I, I, I, I, I, I, I, I, I, I]), ("mass", r "1.0" 1.0), ("CoM_x", r "1.0" 1.0), ("CoM_y",
      r "1.0" 1.0), ("CoM_z", r "1.0" 1.0), ("Ixx", r "1.0" 1.0), ("Ixy", r "1.0" 1.0), ("Ixz", r "1.0" 1.0), ("Iyy", r "1.0" 1.0), ("Iyz",
      r "1.0" 1.0), ("Izz", r "1.0" 1.0)])]),
    ("link5", m [("inertial", m [("symb", .seq [I, I, I, I, I, I, I, I, I, I]), ("mass", r "1.0" 1.0), ("CoM_x", r "1.0" 1.0), ("CoM_y",
      r "1.0" 1.0), ("CoM_z", r "1.0" 1.0), ("Ixx", r "1.0" 1.0), ("Ixy", r "1.0" 1.0), ("Ixz", r "1.0" 1.0), ("Iyy", r "1.0" 1.0), ("Iyz",
      r "1.0" 1.0), ("Izz", r "1.0" 1.0)])]),
    ("link6", m [("inertial", m [("symb", .seq [I, I, I, I, I, I, I, I, I, I]), ("mass", r "1.0" 1.0), ("CoM_x", r "1.0" 1.0), ("CoM_y",
      r "1.0" 1.0), ("CoM_z", r "1.0" 1.0), ("Ixx", r "1.0" 1.0), ("Ixy", r "1.0" 1.0), ("Ixz", r "1.0" 1.0), ("Iyy", r "1.0" 1.0), ("Iyz",
      r "1.0" 1.0), ("Izz", r "1.0" 1.0)])]),
    ("link7", m [("inertial", m [("symb", .seq [I, I, I, I, I, I, I, I, I, I]), ("mass", r "1.0" 1.0), ("CoM_x", r "1.0" 1.0), ("CoM_y",
      r "1.0" 1.0), ("CoM_z", r "1.0" 1.0), ("Ixx", r "1.0" 1.0), ("Ixy", r "1.0" 1.0), ("Ixz", r "1.0" 1.0), ("Iyy", r "1.0" 1.0), ("Iyz",
      r "1.0" 1.0), ("Izz", r "1.0" 1.0)])])])]

/-- `src/thunder/robots/testRobots/R9.yaml`. -/
def R9 : Yaml := m [
  ("version", r "0.2" 0.2),
  ("PI_2", r "1.5707963267948966" 1.5707963267948966),
  ("PI_2_neg", r "-1.5707963267948966" (-1.5707963267948966)),
  ("num_joints", z "9" 9 9),
  ("type_joints", .seq [w "R", w "R", w "R", w "R", w "R", w "R", w "R", w "R", w "R"]),
  ("kinematics", m [("DH", .seq [O, O, I, O, O, r "1.5707963267948966" 1.5707963267948966, O, O, O, r "-1.5707963267948966" (-1.5707963267948966), O,
    O, O, r "1.5707963267948966" 1.5707963267948966, z "2" 2 2, O, O, r "-1.5707963267948966" (-1.5707963267948966), O, O, O,
    r "1.5707963267948966" 1.5707963267948966, z "2" 2 2, O, O, r "-1.5707963267948966" (-1.5707963267948966), O, O, O,
    r "1.5707963267948966" 1.5707963267948966, z "2" 2 2, O, I, O, O, O])]),
  ("gravity", m [("value", .seq [O, O, r "-9.81" (-9.81)])]),
  ("Base_to_L0", m [("tr", .seq [O, O, O]), ("ypr", .seq [O, O, O])]),
  ("Ln_to_EE", m [("tr", .seq [I, O, O]), ("ypr", .seq [O, O, r "-1.5707963267948966" (-1.5707963267948966)])]),
  ("dynamics", m [("link1", m [("inertial", m [("symb", .seq [I, I, I, I, I, I, I, I, I, I]), ("mass", r "1.0" 1.0), ("CoM_x", r "1.0" 1.0),
    ("CoM_y", r "1.0" 1.0), ("CoM_z", r "1.0" 1.0), ("Ixx", r "1.0" 1.0), ("Ixy", r "1.0" 1.0), ("Ixz", r "1.0" 1.0), ("Iyy", r "1.0" 1.0), ("Iyz",
    r "1.0" 1.0), ("Izz", r "1.0" 1.0)])]),
    ("link2", m [("inertial", m [("symb", .seq [I, I, I, I, I, I, I, I, I, I]), ("mass", r "1.0" 1.0), ("CoM_x", r "1.0" 1.0), ("CoM_y",
      r "1.0" 1.0), ("CoM_z", r "1.0" 1.0), ("Ixx", r "1.0" 1.0), ("Ixy", r "1.0" 1.0), ("Ixz", r "1.0" 1.0), ("Iyy", r "1.0" 1.0), ("Iyz",
      r "1.0" 1.0), ("Izz", r "1.0" 1.0)])]),
    ("link3", m [("inertial", m [("symb", .seq [I, I, I, I, I, I, I, I, I, I]), ("mass", r "1.0" 1.0), ("CoM_x", r "1.0" 1.0), ("CoM_y",
      r "1.0" 1.0), ("CoM_z", r "1.0" 1.0), ("Ixx", r "1.0" 1.0), ("Ixy", r "1.0" 1.0), ("Ixz", r "1.0" 1.0), ("Iyy", r "1.0" 1.0), ("Iyz",
      r "1.0" 1.0), ("Izz", r "1.0" 1.0)])]),
    ("link4", m [("inertial", m [("symb", .seq [I, I, I, I, I, I, I, I, I, I]), ("mass", r "1.0" 1.0), ("CoM_x", r "1.0" 1.0), ("CoM_y",
      r "1.0" 1.0), ("CoM_z", r "1.0" 1.0), ("Ixx", r "1.0" 1.0), ("Ixy", r "1.0" 1.0), ("Ixz", r "1.0" 1.0), ("Iyy", r "1.0" 1.0), ("Iyz",
      r "1.0" 1.0), ("Izz", r "1.0" 1.0)])]),
    ("link5", m [("inertial", m [("symb", .seq [I, I, I, I, I, I, I, I, I, I]), ("mass", r "1.0" 1.0), ("CoM_x", r "1.0" 1.0), ("CoM_y",
      r "1.0" 1.0), ("CoM_z", r "1.0" 1.0), ("Ixx", r "1.0" 1.0), ("Ixy", r "1.0" 1.0), ("Ixz", r "1.0" 1.0), ("Iyy", r "1.0" 1.0), ("Iyz",
      r "1.0" 1.0), ("Izz", r "1.0" 1.0)])]),
    ("link6", m [("inertial", m [("symb", .seq [I, I, I, I, I, I, I, I, I, I]), ("mass", r "1.0" 1.0), ("CoM_x", r "1.0" 1.0), ("CoM_y",
      r "1.0" 1.0), ("CoM_z", r "1.0" 1.0), ("Ixx", r "1.0" 1.0), ("Ixy", r "1.0" 1.0), ("Ixz", r "1.0" 1.0), ("Iyy", r "1.0" 1.0), ("Iyz",
      r "1.0" 1.0), ("Izz", r "1.0" 1.0)])]),
    ("link7", m [("inertial", m [("symb", .seq [I, I, I, I, I, I, I, I, I, I]), ("mass", r "1.0" 1.0), ("CoM_x", r "1.0" 1.0), ("CoM_y",
      r "1.0" 1.0), ("CoM_z", r "1.0" 1.0), ("Ixx", r "1.0" 1.0), ("Ixy", r "1.0" 1.0), ("Ixz", r "1.0" 1.0), ("Iyy", r "1.0" 1.0), ("Iyz",
      r "1.0" 1.0), ("Izz", r "1.0" 1.0)])]),
    ("link8", m [("inertial", m [("symb", .seq [I, I, I, I, I, I, I, I, I, I]), ("mass", r "1.0" 1.0), ("CoM_x", r "1.0" 1.0), ("CoM_y",
      r "1.0" 1.0), ("CoM_z", r "1.0" 1.0), ("Ixx", r "1.0" 1.0), ("Ixy", r "1.0" 1.0), ("Ixz", r "1.0" 1.0), ("Iyy", r "1.0" 1.0), ("Iyz",
      r "1.0" 1.0), ("Izz", r "1.0" 1.0)])]),
    ("link9", m [("inertial", m [("symb", .seq [I, I, I, I, I, I, I, I, I, I]), ("mass", r "1.0" 1.0), ("CoM_x", r "1.0" 1.0), ("CoM_y",
      r "1.0" 1.0), ("CoM_z", r "1.0" 1.0), ("Ixx", r "1.0" 1.0), ("Ixy", r "1.0" 1.0), ("Ixz", r "1.0" 1.0), ("Iyy", r "1.0" 1.0), ("Iyz",
      r "1.0" 1.0), ("Izz", r "1.0" 1.0)])])])]

/-- `src/thunder/robots/testRobots/R9_kinSymb.yaml`. -/
def R9k : Yaml := m [
  ("version", r "0.2" 0.2),
  ("PI_2", r "1.5707963267948966" 1.5707963267948966),
  ("PI_2_neg", r "-1.5707963267948966" (-1.5707963267948966)),
  ("num_joints", z "9" 9 9),
  ("type_joints", .seq [w "R", w "R", w "R", w "R", w "R", w "R", w "R", w "R", w "R"]),
  ("kinematics", m [("symb", .seq [I, I, I, I, I, I, I, I, I, I, I, I, I, I, I, I, I, I, I, I, I, I, I, I, I, I, I, I, I, I, I, I, I, I, I, I]),
    ("DH", .seq [O, O, I, O, O, r "1.5707963267948966" 1.5707963267948966, O, O, O, r "-1.5707963267948966" (-1.5707963267948966), O, O, O,
    r "1.5707963267948966" 1.5707963267948966, z "2" 2 2, O, O, r "-1.5707963267948966" (-1.5707963267948966), O, O, O,
    r "1.5707963267948966" 1.5707963267948966, z "2" 2 2, O, O, r "-1.5707963267948966" (-1.5707963267948966), O, O, O,
    r "1.5707963267948966" 1.5707963267948966, z "2" 2 2, O, I, O, O, O])]),
  ("gravity", m [("value", .seq [O, O, r "-9.81" (-9.81)])]),
  ("Base_to_L0", m [("tr", .seq [O, O, O]), ("ypr", .seq [O, O, O])]),
  ("Ln_to_EE", m [("tr", .seq [I, O, O]), ("ypr", .seq [O, O, r "-1.5707963267948966" (-1.5707963267948966)])]),
  ("dynamics", m [("link1", m [("inertial", m [("symb", .seq [I, I, I, I, I, I, I, I, I, I]), ("mass", r "1.0" 1.0), ("CoM_x", r "1.0" 1.0),
    ("CoM_y", r "1.0" 1.0), ("CoM_z", r "1.0" 1.0), ("Ixx", r "1.0" 1.0), ("Ixy", r "1.0" 1.0), ("Ixz", r "1.0" 1.0), ("Iyy", r "1.0" 1.0), ("Iyz",
    r "1.0" 1.0), ("Izz", r "1.0" 1.0)])]),
    ("link2", m [("inertial", m [("symb", .seq [I, I, I, I, I, I, I, I, I, I]), ("mass", r "1.0" 1.0), ("CoM_x", r "1.0" 1.0), ("CoM_y",
      r "1.0" 1.0), ("CoM_z", r "1.0" 1.0), ("Ixx", r "1.0" 1.0), ("Ixy", r "1.0" 1.0), ("Ixz", r "1.0" 1.0), ("Iyy", r "1.0" 1.0), ("Iyz",
      r "1.0" 1.0), ("Izz", r "1.0" 1.0)])]),
    ("link3", m [("inertial", m [("symb", .seq [I, I, I, I, I, I, I, I, I, I]), ("mass", r "1.0" 1.0), ("CoM_x", r "1.0" 1.0), ("CoM_y",
      r "1.0" 1.0), ("CoM_z", r "1.0" 1.0), ("Ixx", r "1.0" 1.0), ("Ixy", r "1.0" 1.0), ("Ixz", r "1.0" 1.0), ("Iyy", r "1.0" 1.0), ("Iyz",
      r "1.0" 1.0), ("Izz", r "1.0" 1.0)])]),
    ("link4", m [("inertial", m [("symb", .seq [I, I, I, I, I, I, I, I, I, I]), ("mass", r "1.0" 1.0), ("CoM_x", r "1.0" 1.0), ("CoM_y",
      r "1.0" 1.0), ("CoM_z", r "1.0" 1.0), ("Ixx", r "1.0" 1.0), ("Ixy", r "1.0" 1.0), ("Ixz", r "1.0" 1.0), ("Iyy", r "1.0" 1.0), ("Iyz",
      r "1.0" 1.0), ("Izz", r "1.0" 1.0)])]),
    ("link5", m [("inertial", m [("symb", .seq [I, I, I, I, I, I, I, I, I, I]), ("mass", r "1.0" 1.0), ("CoM_x", r "1.0" 1.0), ("CoM_y",
      r "1.0" 1.0), ("CoM_z", r "1.0" 1.0), ("Ixx", r "1.0" 1.0), ("Ixy", r "1.0" 1.0), ("Ixz", r "1.0" 1.0), ("Iyy", r "1.0" 1.0), ("Iyz",
      r "1.0" 1.0), ("Izz", r "1.0" 1.0)])]),
    ("link6", m [("inertial", m [("symb", .seq [I, I, I, I, I, I, I, I, I, I]), ("mass", r "1.0" 1.0), ("CoM_x", r "1.0" 1.0), ("CoM_y",
      r "1.0" 1.0), ("CoM_z", r "1.0" 1.0), ("Ixx", r "1.0" 1.0), ("Ixy", r "1.0" 1.0), ("Ixz", r "1.0" 1.0), ("Iyy", r "1.0" 1.0), ("Iyz",
      r "1.0" 1.0), ("Izz", r "1.0" 1.0)])]),
    ("link7", m [("inertial", m [("symb", .seq [I, I, I, I, I, I, I, I, I, I]), ("mass", r "1.0" 1.0), ("CoM_x", r "1.0" 1.0), ("CoM_y",
      r "1.0" 1.0), ("CoM_z", r "1.0" 1.0), ("Ixx", r "1.0" 1.0), ("Ixy", r "1.0" 1.0), ("Ixz", r "1.0" 1.0), ("Iyy", r "1.0" 1.0), ("Iyz",
      r "1.0" 1.0), ("Izz", r "1.0" 1.0)])]),
    ("link8", m [("inertial", m [("symb", .seq [I, I, I, I, I, I, I, I, I, I]), ("mass", r "1.0" 1.0), ("CoM_x", r "1.0" 1.0), ("CoM_y",
      r "1.0" 1.0), ("CoM_z", r "1.0" 1.0), ("Ixx", r "1.0" 1.0), ("Ixy", r "1.0" 1.0), ("Ixz", r "1.0" 1.0), ("Iyy", r "1.0" 1.0), ("Iyz",
      r "1.0" 1.0), ("Izz", r "1.0" 1.0)])]),
    ("link9", m [("inertial", m [("symb", .seq [I, I, I, I, I, I, I, I, I, I]), ("mass", r "1.0" 1.0), ("CoM_x", r "1.0" 1.0), ("CoM_y",
      r "1.0" 1.0), ("CoM_z", r "1.0" 1.0), ("Ixx", r "1.0" 1.0), ("Ixy", r "1.0" 1.0), ("Ixz", r "1.0" 1.0), ("Iyy", r "1.0" 1.0), ("Iyz",
      r "1.0" 1.0), ("Izz", r "1.0" 1.0)])])])]

/-- `src/thunder/robots/testRobots/R9_noDynSymb.yaml`. -/
def R9n : Yaml := m [
  ("version", r "0.2" 0.2),
  ("PI_2", r "1.5707963267948966" 1.5707963267948966),
  ("PI_2_neg", r "-1.5707963267948966" (-1.5707963267948966)),
  ("num_joints", z "9" 9 9),
  ("type_joints", .seq [w "R", w "R", w "R", w "R", w "R", w "R", w "R", w "R", w "R"]),
  ("kinematics", m [("DH", .seq [O, O, I, O, O, r "1.5707963267948966" 1.5707963267948966, O, O, O, r "-1.5707963267948966" (-1.5707963267948966), O,
    O, O, r "1.5707963267948966" 1.5707963267948966, z "2" 2 2, O, O, r "-1.5707963267948966" (-1.5707963267948966), O, O, O,
    r "1.5707963267948966" 1.5707963267948966, z "2" 2 2, O, O, r "-1.5707963267948966" (-1.5707963267948966), O, O, O,
    r "1.5707963267948966" 1.5707963267948966, z "2" 2 2, O, I, O, O, O])]),
  ("gravity", m [("value", .seq [O, O, r "-9.81" (-9.81)])]),
  ("Base_to_L0", m [("tr", .seq [O, O, O]), ("ypr", .seq [O, O, O])]),
  ("Ln_to_EE", m [("tr", .seq [I, O, O]), ("ypr", .seq [O, O, r "-1.5707963267948966" (-1.5707963267948966)])]),
  ("dynamics", m [("link1", m [("inertial", m [("symb", .seq [O, O, O, O, O, O, O, O, O, O]), ("mass", r "1.0" 1.0), ("CoM_x", r "1.0" 1.0),
    ("CoM_y", r "1.0" 1.0), ("CoM_z", r "1.0" 1.0), ("Ixx", r "1.0" 1.0), ("Ixy", r "1.0" 1.0), ("Ixz", r "1.0" 1.0), ("Iyy", r "1.0" 1.0), ("Iyz",
    r "1.0" 1.0), ("Izz", r "1.0" 1.0)])]),
    ("link2", m [("inertial", m [("symb", .seq [O, O, O, O, O, O, O, O, O, O]), ("mass", r "1.0" 1.0), ("CoM_x", r "1.0" 1.0), ("CoM_y",
      r "1.0" 1.0), ("CoM_z", r "1.0" 1.0), ("Ixx", r "1.0" 1.0), ("Ixy", r "1.0" 1.0), ("Ixz", r "1.0" 1.0), ("Iyy", r "1.0" 1.0), ("Iyz",
      r "1.0" 1.0), ("Izz", r "1.0" 1.0)])]),
    ("link3", m [("inertial", m [("symb", .seq [O, O, O, O, O, O, O, O, O, O]), ("mass", r "1.0" 1.0), ("CoM_x", r "1.0" 1.0), ("CoM_y",
      r "1.0" 1.0), ("CoM_z", r "1.0" 1.0), ("Ixx", r "1.0" 1.0), ("Ixy", r "1.0" 1.0), ("Ixz", r "1.0" 1.0), ("Iyy", r "1.0" 1.0), ("Iyz",
      r "1.0" 1.0), ("Izz", r "1.0" 1.0)])]),
    ("link4", m [("inertial", m [("symb", .seq [O, O, O, O, O, O, O, O, O, O]), ("mass", r "1.0" 1.0), ("CoM_x", r "1.0" 1.0), ("CoM_y",
      r "1.0" 1.0), ("CoM_z", r "1.0" 1.0), ("Ixx", r "1.0" 1.0), ("Ixy", r "1.0" 1.0), ("Ixz", r "1.0" 1.0), ("Iyy", r "1.0" 1.0), ("Iyz",
      r "1.0" 1.0), ("Izz", r "1.0" 1.0)])]),
    ("link5", m [("inertial", m [("symb", .seq [O, O, O, O, O, O, O, O, O, O]), ("mass", r "1.0" 1.0), ("CoM_x", r "1.0" 1.0), ("CoM_y",
      r "1.0" 1.0), ("CoM_z", r "1.0" 1.0), ("Ixx", r "1.0" 1.0), ("Ixy", r "1.0" 1.0), ("Ixz", r "1.0" 1.0), ("Iyy", r "1.0" 1.0), ("Iyz",
      r "1.0" 1.0), ("Izz", r "1.0" 1.0)])]),
    ("link6", m [("inertial", m [("symb", .seq [O, O, O, O, O, O, O, O, O, O]), ("mass", r "1.0" 1.0), ("CoM_x", r "1.0" 1.0), ("CoM_y",
      r "1.0" 1.0), ("CoM_z", r "1.0" 1.0), ("Ixx", r "1.0" 1.0), ("Ixy", r "1.0" 1.0), ("Ixz", r "1.0" 1.0), ("Iyy", r "1.0" 1.0), ("Iyz",
      r "1.0" 1.0), ("Izz", r "1.0" 1.0)])]),
    ("link7", m [("inertial", m [("symb", .seq [O, O, O, O, O, O, O, O, O, O]), ("mass", r "1.0" 1.0), ("CoM_x", r "1.0" 1.0), ("CoM_y",
      r "1.0" 1.0), ("CoM_z", r "1.0" 1.0), ("Ixx", r "1.0" 1.0), ("Ixy", r "1.0" 1.0), ("Ixz", r "1.0" 1.0), ("Iyy", r "1.0" 1.0), ("Iyz",
      r "1.0" 1.0), ("Izz", r "1.0" 1.0)])]),
    ("link8", m [("inertial", m [("symb", .seq [O, O, O, O, O, O, O, O, O, O]), ("mass", r "1.0" 1.0), ("CoM_x", r "1.0" 1.0), ("CoM_y",
      r "1.0" 1.0), ("CoM_z", r "1.0" 1.0), ("Ixx", r "1.0" 1.0), ("Ixy", r "1.0" 1.0), ("Ixz", r "1.0" 1.0), ("Iyy", r "1.0" 1.0), ("Iyz",
      r "1.0" 1.0), ("Izz", r "1.0" 1.0)])]),
    ("link9", m [("inertial", m [("symb", .seq [O, O, O, O, O, O, O, O, O, O]), ("mass", r "1.0" 1.0), ("CoM_x", r "1.0" 1.0), ("CoM_y",
      r "1.0" 1.0), ("CoM_z", r "1.0" 1.0), ("Ixx", r "1.0" 1.0), ("Ixy", r "1.0" 1.0), ("Ixz", r "1.0" 1.0), ("Iyy", r "1.0" 1.0), ("Iyz",
      r "1.0" 1.0), ("Izz", r "1.0" 1.0)])])])]

/-- `robots/RRR/RRR.yaml`. -/
def oldRRR : Yaml := m [
  ("version", r "0.2" 0.2),
  ("PI_2", r "1.5707963267948966" 1.5707963267948966),
  ("PI_2_neg", r "-1.5707963267948966" (-1.5707963267948966)),
  ("num_joints", z "3" 3 3),
  ("type_joints", .seq [w "R", w "R", w "R"]),
  ("kinematics", m [("symb", .seq [O, O, O, O, O, O, O, O, O, O, O, O]), ("DH", .seq [O, O, I, O, O, r "1.5707963267948966" 1.5707963267948966, O, O,
    I, O, O, O])]),
  ("gravity", m [("symb", .seq [O, O, O]), ("value", .seq [O, O, r "-9.81" (-9.81)])]),
  ("Base_to_L0", m [("symb", .seq [O, O, O, O, O, O]), ("tr", .seq [O, O, O]), ("ypr", .seq [O, O, O])]),
  ("Ln_to_EE", m [("symb", .seq [I, I, I, O, O, O]), ("tr", .seq [I, O, O]), ("ypr", .seq [O, O, r "-1.5707963267948966" (-1.5707963267948966)])]),
  ("dynamics", m [("link1", m [("inertial", m [("symb", .seq [I, I, I, I, I, I, I, I, I, I]), ("mass", r "1.0" 1.0), ("CoM_x", r "1.0" 1.0),
    ("CoM_y", r "1.0" 1.0), ("CoM_z", r "1.0" 1.0), ("Ixx", r "1.0" 1.0), ("Ixy", r "1.0" 1.0), ("Ixz", r "1.0" 1.0), ("Iyy", r "1.0" 1.0), ("Iyz",
    r "1.0" 1.0), ("Izz", r "1.0" 1.0)]),
      ("friction", m [("symb", .seq [O, O]), ("Dl", .seq [r "0.1" 0.1, r "0.01" 0.01])])]),
    ("link2", m [("inertial", m [("symb", .seq [I, I, I, I, I, I, I, I, I, I]), ("mass", r "1.0" 1.0), ("CoM_x", r "1.0" 1.0), ("CoM_y",
      r "1.0" 1.0), ("CoM_z", r "1.0" 1.0), ("Ixx", r "1.0" 1.0), ("Ixy", r "1.0" 1.0), ("Ixz", r "1.0" 1.0), ("Iyy", r "1.0" 1.0), ("Iyz",
      r "1.0" 1.0), ("Izz", r "1.0" 1.0)]),
      ("friction", m [("symb", .seq [O, O]), ("Dl", .seq [r "0.1" 0.1, r "0.01" 0.01])])]),
    ("link3", m [("inertial", m [("symb", .seq [I, I, I, I, I, I, I, I, I, I]), ("mass", r "1.0" 1.0), ("CoM_x", r "1.0" 1.0), ("CoM_y",
      r "1.0" 1.0), ("CoM_z", r "1.0" 1.0), ("Ixx", r "1.0" 1.0), ("Ixy", r "1.0" 1.0), ("Ixz", r "1.0" 1.0), ("Iyy", r "1.0" 1.0), ("Iyz",
      r "1.0" 1.0), ("Izz", r "1.0" 1.0)]),
      ("friction", m [("symb", .seq [O, O]), ("Dl", .seq [r "0.1" 0.1, r "0.01" 0.01])])])])]

/-- `robots/RRR_sea/seaRRR.yaml`. -/
def oldSea : Yaml := m [
  ("version", r "0.3" 0.3),
  ("PI_2", r "1.5707963267948966" 1.5707963267948966),
  ("PI_2_neg", r "-1.5707963267948966" (-1.5707963267948966)),
  ("ELASTIC_MODEL", b "true" true),
  ("num_joints", z "3" 3 3),
  ("Dl_order", z "2" 2 2),
  ("type_joints", .seq [w "R_SEA", w "R", w "R"]),
  ("kinematics", m [("symb", .seq [O, O, O, O, O, O, O, O, O, O, O, O]), ("DH", .seq [O, O, I, O, O, r "1.5707963267948966" 1.5707963267948966, O, O,
    I, O, O, O])]),
  ("gravity", m [("symb", .seq [O, O, O]), ("value", .seq [O, O, r "-9.81" (-9.81)])]),
  ("Base_to_L0", m [("symb", .seq [O, O, O, O, O, O]), ("tr", .seq [O, O, O]), ("ypr", .seq [O, O, O])]),
  ("Ln_to_EE", m [("symb", .seq [O, O, O, O, O, O]), ("tr", .seq [I, O, O]), ("ypr", .seq [O, O, r "-1.5707963267948966" (-1.5707963267948966)])]),
  ("dynamics", m [("link1", m [("inertial", m [("symb", .seq [O, O, O, O, O, O, O, O, O, O]), ("mass", r "1.0" 1.0), ("CoM_x", r "1.0" 1.0),
    ("CoM_y", r "1.0" 1.0), ("CoM_z", r "1.0" 1.0), ("Ixx", r "1.0" 1.0), ("Ixy", r "1.0" 1.0), ("Ixz", r "1.0" 1.0), ("Iyy", r "1.0" 1.0), ("Iyz",
    r "1.0" 1.0), ("Izz", r "1.0" 1.0)]),
      ("friction", m [("symb", .seq [O, O]), ("Dl", .seq [r "0.1" 0.1, r "0.01" 0.01])])]),
    ("link2", m [("inertial", m [("symb", .seq [O, O, O, O, O, O, O, O, O, O]), ("mass", r "1.0" 1.0), ("CoM_x", r "1.0" 1.0), ("CoM_y",
      r "1.0" 1.0), ("CoM_z", r "1.0" 1.0), ("Ixx", r "1.0" 1.0), ("Ixy", r "1.0" 1.0), ("Ixz", r "1.0" 1.0), ("Iyy", r "1.0" 1.0), ("Iyz",
      r "1.0" 1.0), ("Izz", r "1.0" 1.0)]),
      ("friction", m [("symb", .seq [O, O]), ("Dl", .seq [r "0.1" 0.1, r "0.01" 0.01])])]),
    ("link3", m [("inertial", m [("symb", .seq [O, O, O, O, O, O, O, O, O, O]), ("mass", r "1.0" 1.0), ("CoM_x", r "1.0" 1.0), ("CoM_y",
      r "1.0" 1.0), ("CoM_z", r "1.0" 1.0), ("Ixx", r "1.0" 1.0), ("Ixy", r "1.0" 1.0), ("Ixz", r "1.0" 1.0), ("Iyy", r "1.0" 1.0), ("Iyz",
      r "1.0" 1.0), ("Izz", r "1.0" 1.0)]),
      ("friction", m [("symb", .seq [O, O]), ("Dl", .seq [r "0.1" 0.1, r "0.01" 0.01])])])]),
  ("elastic", m [("K_order", I),
    ("D_order", O),
    ("Dm_order", I),
    ("joints", m [("joint1", m [("K", .seq [r "1.0" 1.0]), ("D", .seq []), ("Dm", .seq [r "0.1" 0.1]), ("Mm", r "1.0" 1.0), ("K_symb", .seq [O]),
      ("D_symb", .seq []), ("Dm_symb", .seq [O]), ("Mm_symb", O)])])])]

/-- `robots/franka/franka.yaml`. -/
def oldFranka : Yaml := m [
  ("version", r "0.2" 0.2),
  ("PI_2", r "1.5707963267948966" 1.5707963267948966),
  ("PI_2_neg", r "-1.5707963267948966" (-1.5707963267948966)),
  ("PI_4_neg", r "-0.7853981633974483" (-0.7853981633974483)),
  ("num_joints", z "7" 7 7),
  ("type_joints", .seq [w "R", w "R", w "R", w "R", w "R", w "R", w "R"]),
  ("kinematics", m [("symb", .seq [O, O, O, O, O, O, O, O, O, O, O, O, O, O, O, O, O, O, O, O, O, O, O, O, O, O, O, O]), ("DH", .seq [O, O,
    r "0.3330" 0.3330, O, O, r "-1.5707963267948966" (-1.5707963267948966), O, O, O, r "1.5707963267948966" 1.5707963267948966, r "0.3160" 0.3160, O,
    r "0.0825" 0.0825, r "1.5707963267948966" 1.5707963267948966, O, O, r "-0.0825" (-0.0825), r "-1.5707963267948966" (-1.5707963267948966),
    r "0.384" 0.384, O, O, r "1.5707963267948966" 1.5707963267948966, O, O, r "0.088" 0.088, r "1.5707963267948966" 1.5707963267948966,
    r "0.107" 0.107, O])]),
  ("gravity", m [("symb", .seq [O, O, O]), ("value", .seq [O, O, r "-9.81" (-9.81)])]),
  ("Base_to_L0", m [("symb", .seq [O, O, O, O, O, O]), ("tr", .seq [O, O, O]), ("ypr", .seq [O, O, O])]),
  ("Ln_to_EE", m [("symb", .seq [O, O, O, O, O, O]), ("tr", .seq [O, O, O]), ("ypr", .seq [O, O, O])]),
  ("dynamics", m [("link1", m [("inertial", m [("symb", .seq [O, O, O, O, O, O, O, O, O, O]), ("mass", r "4.970684" 4.970684), ("CoM_x",
    r "3.875e-3" 3.875e-3), ("CoM_y", r "2.081e-3" 2.081e-3), ("CoM_z", r "-4.762e-2" (-4.762e-2)), ("Ixx", r "7.0337e-1" 7.0337e-1), ("Iyy",
    r "7.0661e-1" 7.0661e-1), ("Izz", r "9.1170e-3" 9.1170e-3), ("Ixy", r "-1.3900e-4" (-1.3900e-4)), ("Ixz", r "6.7720e-3" 6.7720e-3), ("Iyz",
    r "1.9169e-2" 1.9169e-2)])]),
    ("link2", m [("inertial", m [("symb", .seq [O, O, O, O, O, O, O, O, O, O]), ("mass", r "0.646926" 0.646926), ("CoM_x",
      r "-3.141e-3" (-3.141e-3)), ("CoM_y", r "-2.872e-2" (-2.872e-2)), ("CoM_z", r "3.495e-3" 3.495e-3), ("Ixx", r "7.9620e-3" 7.9620e-3), ("Iyy",
      r "2.8110e-02" 2.8110e-02), ("Izz", r "2.5995e-02" 2.5995e-02), ("Ixy", r "-3.9250e-3" (-3.9250e-3)), ("Ixz", r "1.0254e-02" 1.0254e-02),
      ("Iyz", r "7.0400e-04" 7.0400e-04)])]),
    ("link3", m [("inertial", m [("symb", .seq [O, O, O, O, O, O, O, O, O, O]), ("mass", r "3.228604" 3.228604), ("CoM_x",
      r "2.7518e-02" 2.7518e-02), ("CoM_y", r "3.9252e-02" 3.9252e-02), ("CoM_z", r "-6.6502e-02" (-6.6502e-02)), ("Ixx", r "3.7242e-02" 3.7242e-02),
      ("Iyy", r "3.6155e-02" 3.6155e-02), ("Izz", r "1.0830e-02" 1.0830e-02), ("Ixy", r "-4.7610e-03" (-4.7610e-03)), ("Ixz",
      r "-1.1396e-02" (-1.1396e-02)), ("Iyz", r "-1.2805e-02" (-1.2805e-02))])]),
    ("link4", m [("inertial", m [("symb", .seq [O, O, O, O, O, O, O, O, O, O]), ("mass", r "3.587895" 3.587895), ("CoM_x",
      r "-5.317e-02" (-5.317e-02)), ("CoM_y", r "1.04419e-01" 1.04419e-01), ("CoM_z", r "2.7454e-02" 2.7454e-02), ("Ixx", r "2.5853e-02" 2.5853e-02),
      ("Iyy", r "1.9552e-02" 1.9552e-02), ("Izz", r "2.8323e-02" 2.8323e-02), ("Ixy", r "7.7960e-03" 7.7960e-03), ("Ixz",
      r "-1.3320e-03" (-1.3320e-03)), ("Iyz", r "8.6410e-03" 8.6410e-03)])]),
    ("link5", m [("inertial", m [("symb", .seq [O, O, O, O, O, O, O, O, O, O]), ("mass", r "1.225946" 1.225946), ("CoM_x",
      r "-1.1953e-02" (-1.1953e-02)), ("CoM_y", r "4.1065e-02" 4.1065e-02), ("CoM_z", r "-3.8437e-02" (-3.8437e-02)), ("Ixx",
      r "3.5549e-02" 3.5549e-02), ("Iyy", r "2.9474e-02" 2.9474e-02), ("Izz", r "8.6270e-03" 8.6270e-03), ("Ixy", r "-2.1170e-03" (-2.1170e-03)),
      ("Ixz", r "-4.0370e-03" (-4.0370e-03)), ("Iyz", r "2.2900e-04" 2.2900e-04)])]),
    ("link6", m [("inertial", m [("symb", .seq [O, O, O, O, O, O, O, O, O, O]), ("mass", r "1.666555" 1.666555), ("CoM_x",
      r "6.0149e-02" 6.0149e-02), ("CoM_y", r "-1.4117e-02" (-1.4117e-02)), ("CoM_z", r "-1.0517e-02" (-1.0517e-02)), ("Ixx",
      r "1.9640e-03" 1.9640e-03), ("Iyy", r "4.3540e-03" 4.3540e-03), ("Izz", r "5.4330e-03" 5.4330e-03), ("Ixy", r "1.0900e-04" 1.0900e-04), ("Ixz",
      r "-1.1580e-03" (-1.1580e-03)), ("Iyz", r "3.4100e-04" 3.4100e-04)])]),
    ("link7", m [("inertial", m [("symb", .seq [O, O, O, O, O, O, O, O, O, O]), ("mass", r "0.735522" 0.735522), ("CoM_x",
      r "1.0517e-02" 1.0517e-02), ("CoM_y", r "-4.252e-03" (-4.252e-03)), ("CoM_z", r "-4.5403e-02" (-4.5403e-02)), ("Ixx",
      r "1.2516e-02" 1.2516e-02), ("Ixy", r "-4.28e-04" (-4.28e-04)), ("Ixz", r "-1.196e-03" (-1.196e-03)), ("Iyy", r "1.0027e-02" 1.0027e-02),
      ("Iyz", r "-7.41e-04" (-7.41e-04)), ("Izz", r "4.815e-03" 4.815e-03)])])])]

/-- `src/thunder/robots/testRobots/R15.yaml`. -/
def R15 : Yaml := m [
  ("version", r "0.1" 0.1),
  ("PI_2", r "1.5707963267948966" 1.5707963267948966),
  ("PI_2_neg", r "-1.5707963267948966" (-1.5707963267948966)),
  ("num_joints", z "15" 15 15),
  ("type_joints", .seq [w "R", w "R", w "R", w "R", w "R", w "R", w "R", w "R", w "R", w "R", w "R", w "R", w "R", w "R", w "R"]),
  ("DH", .seq [O, O, I, O, O, r "1.5707963267948966" 1.5707963267948966, O, O, O, r "-1.5707963267948966" (-1.5707963267948966), O, O, O,
    r "1.5707963267948966" 1.5707963267948966, z "2" 2 2, O, O, r "-1.5707963267948966" (-1.5707963267948966), O, O, O,
    r "1.5707963267948966" 1.5707963267948966, z "2" 2 2, O, O, r "-1.5707963267948966" (-1.5707963267948966), O, O, O,
    r "1.5707963267948966" 1.5707963267948966, z "2" 2 2, O, O, r "-1.5707963267948966" (-1.5707963267948966), O, O, O,
    r "1.5707963267948966" 1.5707963267948966, z "2" 2 2, O, O, r "-1.5707963267948966" (-1.5707963267948966), O, O, O,
    r "1.5707963267948966" 1.5707963267948966, z "2" 2 2, O, O, r "-1.5707963267948966" (-1.5707963267948966), O, O, O,
    r "1.5707963267948966" 1.5707963267948966, z "2" 2 2, O, I, O, O, O]),
  ("gravity", .seq [O, O, r "-9.81" (-9.81)]),
  ("Base_to_L0", m [("tr", .seq [O, O, O]), ("ypr", .seq [O, O, O])]),
  ("Ln_to_EE", m [("tr", .seq [I, O, O]), ("ypr", .seq [O, O, r "-1.5707963267948966" (-1.5707963267948966)])]),
  ("inertial", m [("link1", m [("mass", r "1.0" 1.0), ("CoM_x", r "1.0" 1.0), ("CoM_y", r "1.0" 1.0), ("CoM_z", r "1.0" 1.0), ("Ixx", r "1.0" 1.0),
    ("Ixy", r "1.0" 1.0), ("Ixz", r "1.0" 1.0), ("Iyy", r "1.0" 1.0), ("Iyz", r "1.0" 1.0), ("Izz", r "1.0" 1.0)]),
    ("link2", m [("mass", r "1.0" 1.0), ("CoM_x", r "1.0" 1.0), ("CoM_y", r "1.0" 1.0), ("CoM_z", r "1.0" 1.0), ("Ixx", r "1.0" 1.0), ("Ixy",
      r "1.0" 1.0), ("Ixz", r "1.0" 1.0), ("Iyy", r "1.0" 1.0), ("Iyz", r "1.0" 1.0), ("Izz", r "1.0" 1.0)]),
    ("link3", m [("mass", r "1.0" 1.0), ("CoM_x", r "1.0" 1.0), ("CoM_y", r "1.0" 1.0), ("CoM_z", r "1.0" 1.0), ("Ixx", r "1.0" 1.0), ("Ixy",
      r "1.0" 1.0), ("Ixz", r "1.0" 1.0), ("Iyy", r "1.0" 1.0), ("Iyz", r "1.0" 1.0), ("Izz", r "1.0" 1.0)]),
    ("link4", m [("mass", r "1.0" 1.0), ("CoM_x", r "1.0" 1.0), ("CoM_y", r "1.0" 1.0), ("CoM_z", r "1.0" 1.0), ("Ixx", r "1.0" 1.0), ("Ixy",
      r "1.0" 1.0), ("Ixz", r "1.0" 1.0), ("Iyy", r "1.0" 1.0), ("Iyz", r "1.0" 1.0), ("Izz", r "1.0" 1.0)]),
    ("link5", m [("mass", r "1.0" 1.0), ("CoM_x", r "1.0" 1.0), ("CoM_y", r "1.0" 1.0), ("CoM_z", r "1.0" 1.0), ("Ixx", r "1.0" 1.0), ("Ixy",
      r "1.0" 1.0), ("Ixz", r "1.0" 1.0), ("Iyy", r "1.0" 1.0), ("Iyz", r "1.0" 1.0), ("Izz", r "1.0" 1.0)]),
    ("link6", m [("mass", r "1.0" 1.0), ("CoM_x", r "1.0" 1.0), ("CoM_y", r "1.0" 1.0), ("CoM_z", r "1.0" 1.0), ("Ixx", r "1.0" 1.0), ("Ixy",
      r "1.0" 1.0), ("Ixz", r "1.0" 1.0), ("Iyy", r "1.0" 1.0), ("Iyz", r "1.0" 1.0), ("Izz", r "1.0" 1.0)]),
    ("link7", m [("mass", r "1.0" 1.0), ("CoM_x", r "1.0" 1.0), ("CoM_y", r "1.0" 1.0), ("CoM_z", r "1.0" 1.0), ("Ixx", r "1.0" 1.0), ("Ixy",
      r "1.0" 1.0), ("Ixz", r "1.0" 1.0), ("Iyy", r "1.0" 1.0), ("Iyz", r "1.0" 1.0), ("Izz", r "1.0" 1.0)]),
    ("link8", m [("mass", r "1.0" 1.0), ("CoM_x", r "1.0" 1.0), ("CoM_y", r "1.0" 1.0), ("CoM_z", r "1.0" 1.0), ("Ixx", r "1.0" 1.0), ("Ixy",
      r "1.0" 1.0), ("Ixz", r "1.0" 1.0), ("Iyy", r "1.0" 1.0), ("Iyz", r "1.0" 1.0), ("Izz", r "1.0" 1.0)]),
    ("link9", m [("mass", r "1.0" 1.0), ("CoM_x", r "1.0" 1.0), ("CoM_y", r "1.0" 1.0), ("CoM_z", r "1.0" 1.0), ("Ixx", r "1.0" 1.0), ("Ixy",
      r "1.0" 1.0), ("Ixz", r "1.0" 1.0), ("Iyy", r "1.0" 1.0), ("Iyz", r "1.0" 1.0), ("Izz", r "1.0" 1.0)]),
    ("link10", m [("mass", r "1.0" 1.0), ("CoM_x", r "1.0" 1.0), ("CoM_y", r "1.0" 1.0), ("CoM_z", r "1.0" 1.0), ("Ixx", r "1.0" 1.0), ("Ixy",
      r "1.0" 1.0), ("Ixz", r "1.0" 1.0), ("Iyy", r "1.0" 1.0), ("Iyz", r "1.0" 1.0), ("Izz", r "1.0" 1.0)]),
    ("link11", m [("mass", r "1.0" 1.0), ("CoM_x", r "1.0" 1.0), ("CoM_y", r "1.0" 1.0), ("CoM_z", r "1.0" 1.0), ("Ixx", r "1.0" 1.0), ("Ixy",
      r "1.0" 1.0), ("Ixz", r "1.0" 1.0), ("Iyy", r "1.0" 1.0), ("Iyz", r "1.0" 1.0), ("Izz", r "1.0" 1.0)]),
    ("link12", m [("mass", r "1.0" 1.0), ("CoM_x", r "1.0" 1.0), ("CoM_y", r "1.0" 1.0), ("CoM_z", r "1.0" 1.0), ("Ixx", r "1.0" 1.0), ("Ixy",
      r "1.0" 1.0), ("Ixz", r "1.0" 1.0), ("Iyy", r "1.0" 1.0), ("Iyz", r "1.0" 1.0), ("Izz", r "1.0" 1.0)]),
    ("link13", m [("mass", r "1.0" 1.0), ("CoM_x", r "1.0" 1.0), ("CoM_y", r "1.0" 1.0), ("CoM_z", r "1.0" 1.0), ("Ixx", r "1.0" 1.0), ("Ixy",
      r "1.0" 1.0), ("Ixz", r "1.0" 1.0), ("Iyy", r "1.0" 1.0), ("Iyz", r "1.0" 1.0), ("Izz", r "1.0" 1.0)]),
    ("link14", m [("mass", r "1.0" 1.0), ("CoM_x", r "1.0" 1.0), ("CoM_y", r "1.0" 1.0), ("CoM_z", r "1.0" 1.0), ("Ixx", r "1.0" 1.0), ("Ixy",
      r "1.0" 1.0), ("Ixz", r "1.0" 1.0), ("Iyy", r "1.0" 1.0), ("Iyz", r "1.0" 1.0), ("Izz", r "1.0" 1.0)]),
    ("link15", m [("mass", r "1.0" 1.0), ("CoM_x", r "1.0" 1.0), ("CoM_y", r "1.0" 1.0), ("CoM_z", r "1.0" 1.0), ("Ixx", r "1.0" 1.0), ("Ixy",
      r "1.0" 1.0), ("Ixz", r "1.0" 1.0), ("Iyy", r "1.0" 1.0), ("Iyz", r "1.0" 1.0), ("Izz", r "1.0" 1.0)])])]

/-- `src/thunder/robots/testRobots/R30.yaml`. -/
def R30 : Yaml := m [
  ("version", r "0.1" 0.1),
  ("PI_2", r "1.5707963267948966" 1.5707963267948966),
  ("PI_2_neg", r "-1.5707963267948966" (-1.5707963267948966)),
  ("num_joints", z "30" 30 30),
  ("type_joints", .seq [w "R", w "R", w "R", w "R", w "R", w "R", w "R", w "R", w "R", w "R", w "R", w "R", w "R", w "R", w "R", w "R", w "R", w "R",
    w "R", w "R", w "R", w "R", w "R", w "R", w "R", w "R", w "R", w "R", w "R", w "R"]),
  ("DH", .seq [O, O, I, O, O, r "1.5707963267948966" 1.5707963267948966, O, O, O, r "-1.5707963267948966" (-1.5707963267948966), O, O, O,
    r "1.5707963267948966" 1.5707963267948966, z "2" 2 2, O, O, r "-1.5707963267948966" (-1.5707963267948966), O, O, O,
    r "1.5707963267948966" 1.5707963267948966, z "2" 2 2, O, O, r "-1.5707963267948966" (-1.5707963267948966), O, O, O,
    r "1.5707963267948966" 1.5707963267948966, z "2" 2 2, O, O, r "-1.5707963267948966" (-1.5707963267948966), O, O, O,
    r "1.5707963267948966" 1.5707963267948966, z "2" 2 2, O, O, r "-1.5707963267948966" (-1.5707963267948966), O, O, O,
    r "1.5707963267948966" 1.5707963267948966, z "2" 2 2, O, O, r "-1.5707963267948966" (-1.5707963267948966), O, O, O,
    r "1.5707963267948966" 1.5707963267948966, z "2" 2 2, O, O, r "-1.5707963267948966" (-1.5707963267948966), O, O, O,
    r "1.5707963267948966" 1.5707963267948966, z "2" 2 2, O, O, r "-1.5707963267948966" (-1.5707963267948966), O, O, O,
    r "1.5707963267948966" 1.5707963267948966, z "2" 2 2, O, O, r "-1.5707963267948966" (-1.5707963267948966), O, O, O,
    r "1.5707963267948966" 1.5707963267948966, z "2" 2 2, O, O, r "-1.5707963267948966" (-1.5707963267948966), O, O, O,
    r "1.5707963267948966" 1.5707963267948966, z "2" 2 2, O, O, r "-1.5707963267948966" (-1.5707963267948966), O, O, O,
    r "1.5707963267948966" 1.5707963267948966, z "2" 2 2, O, O, r "-1.5707963267948966" (-1.5707963267948966), O, O, O,
    r "1.5707963267948966" 1.5707963267948966, z "2" 2 2, O, O, r "-1.5707963267948966" (-1.5707963267948966), O, O, O,
    r "1.5707963267948966" 1.5707963267948966, z "2" 2 2, O, I, O, O, O, I, O, O, O]),
  ("gravity", .seq [O, O, r "-9.81" (-9.81)]),
  ("Base_to_L0", m [("tr", .seq [O, O, O]), ("ypr", .seq [O, O, O])]),
  ("Ln_to_EE", m [("tr", .seq [I, O, O]), ("ypr", .seq [O, O, r "-1.5707963267948966" (-1.5707963267948966)])]),
  ("inertial", m [("link1", m [("mass", r "1.0" 1.0), ("CoM_x", r "1.0" 1.0), ("CoM_y", r "1.0" 1.0), ("CoM_z", r "1.0" 1.0), ("Ixx", r "1.0" 1.0),
    ("Ixy", r "1.0" 1.0), ("Ixz", r "1.0" 1.0), ("Iyy", r "1.0" 1.0), ("Iyz", r "1.0" 1.0), ("Izz", r "1.0" 1.0)]),
    ("link2", m [("mass", r "1.0" 1.0), ("CoM_x", r "1.0" 1.0), ("CoM_y", r "1.0" 1.0), ("CoM_z", r "1.0" 1.0), ("Ixx", r "1.0" 1.0), ("Ixy",
      r "1.0" 1.0), ("Ixz", r "1.0" 1.0), ("Iyy", r "1.0" 1.0), ("Iyz", r "1.0" 1.0), ("Izz", r "1.0" 1.0)]),
    ("link3", m [("mass", r "1.0" 1.0), ("CoM_x", r "1.0" 1.0), ("CoM_y", r "1.0" 1.0), ("CoM_z", r "1.0" 1.0), ("Ixx", r "1.0" 1.0), ("Ixy",
      r "1.0" 1.0), ("Ixz", r "1.0" 1.0), ("Iyy", r "1.0" 1.0), ("Iyz", r "1.0" 1.0), ("Izz", r "1.0" 1.0)]),
    ("link4", m [("mass", r "1.0" 1.0), ("CoM_x", r "1.0" 1.0), ("CoM_y", r "1.0" 1.0), ("CoM_z", r "1.0" 1.0), ("Ixx", r "1.0" 1.0), ("Ixy",
      r "1.0" 1.0), ("Ixz", r "1.0" 1.0), ("Iyy", r "1.0" 1.0), ("Iyz", r "1.0" 1.0), ("Izz", r "1.0" 1.0)]),
    ("link5", m [("mass", r "1.0" 1.0), ("CoM_x", r "1.0" 1.0), ("CoM_y", r "1.0" 1.0), ("CoM_z", r "1.0" 1.0), ("Ixx", r "1.0" 1.0), ("Ixy",
      r "1.0" 1.0), ("Ixz", r "1.0" 1.0), ("Iyy", r "1.0" 1.0), ("Iyz", r "1.0" 1.0), ("Izz", r "1.0" 1.0)]),
    ("link6", m [("mass", r "1.0" 1.0), ("CoM_x", r "1.0" 1.0), ("CoM_y", r "1.0" 1.0), ("CoM_z", r "1.0" 1.0), ("Ixx", r "1.0" 1.0), ("Ixy",
      r "1.0" 1.0), ("Ixz", r "1.0" 1.0), ("Iyy", r "1.0" 1.0), ("Iyz", r "1.0" 1.0), ("Izz", r "1.0" 1.0)]),
    ("link7", m [("mass", r "1.0" 1.0), ("CoM_x", r "1.0" 1.0), ("CoM_y", r "1.0" 1.0), ("CoM_z", r "1.0" 1.0), ("Ixx", r "1.0" 1.0), ("Ixy",
      r "1.0" 1.0), ("Ixz", r "1.0" 1.0), ("Iyy", r "1.0" 1.0), ("Iyz", r "1.0" 1.0), ("Izz", r "1.0" 1.0)]),
    ("link8", m [("mass", r "1.0" 1.0), ("CoM_x", r "1.0" 1.0), ("CoM_y", r "1.0" 1.0), ("CoM_z", r "1.0" 1.0), ("Ixx", r "1.0" 1.0), ("Ixy",
      r "1.0" 1.0), ("Ixz", r "1.0" 1.0), ("Iyy", r "1.0" 1.0), ("Iyz", r "1.0" 1.0), ("Izz", r "1.0" 1.0)]),
    ("link9", m [("mass", r "1.0" 1.0), ("CoM_x", r "1.0" 1.0), ("CoM_y", r "1.0" 1.0), ("CoM_z", r "1.0" 1.0), ("Ixx", r "1.0" 1.0), ("Ixy",
      r "1.0" 1.0), ("Ixz", r "1.0" 1.0), ("Iyy", r "1.0" 1.0), ("Iyz", r "1.0" 1.0), ("Izz", r "1.0" 1.0)]),
    ("link10", m [("mass", r "1.0" 1.0), ("CoM_x", r "1.0" 1.0), ("CoM_y", r "1.0" 1.0), ("CoM_z", r "1.0" 1.0), ("Ixx", r "1.0" 1.0), ("Ixy",
      r "1.0" 1.0), ("Ixz", r "1.0" 1.0), ("Iyy", r "1.0" 1.0), ("Iyz", r "1.0" 1.0), ("Izz", r "1.0" 1.0)]),
    ("link11", m [("mass", r "1.0" 1.0), ("CoM_x", r "1.0" 1.0), ("CoM_y", r "1.0" 1.0), ("CoM_z", r "1.0" 1.0), ("Ixx", r "1.0" 1.0), ("Ixy",
      r "1.0" 1.0), ("Ixz", r "1.0" 1.0), ("Iyy", r "1.0" 1.0), ("Iyz", r "1.0" 1.0), ("Izz", r "1.0" 1.0)]),
    ("link12", m [("mass", r "1.0" 1.0), ("CoM_x", r "1.0" 1.0), ("CoM_y", r "1.0" 1.0), ("CoM_z", r "1.0" 1.0), ("Ixx", r "1.0" 1.0), ("Ixy",
      r "1.0" 1.0), ("Ixz", r "1.0" 1.0), ("Iyy", r "1.0" 1.0), ("Iyz", r "1.0" 1.0), ("Izz", r "1.0" 1.0)]),
    ("link13", m [("mass", r "1.0" 1.0), ("CoM_x", r "1.0" 1.0), ("CoM_y", r "1.0" 1.0), ("CoM_z", r "1.0" 1.0), ("Ixx", r "1.0" 1.0), ("Ixy",
      r "1.0" 1.0), ("Ixz", r "1.0" 1.0), ("Iyy", r "1.0" 1.0), ("Iyz", r "1.0" 1.0), ("Izz", r "1.0" 1.0)]),
    ("link14", m [("mass", r "1.0" 1.0), ("CoM_x", r "1.0" 1.0), ("CoM_y", r "1.0" 1.0), ("CoM_z", r "1.0" 1.0), ("Ixx", r "1.0" 1.0), ("Ixy",
      r "1.0" 1.0), ("Ixz", r "1.0" 1.0), ("Iyy", r "1.0" 1.0), ("Iyz", r "1.0" 1.0), ("Izz", r "1.0" 1.0)]),
    ("link15", m [("mass", r "1.0" 1.0), ("CoM_x", r "1.0" 1.0), ("CoM_y", r "1.0" 1.0), ("CoM_z", r "1.0" 1.0), ("Ixx", r "1.0" 1.0), ("Ixy",
      r "1.0" 1.0), ("Ixz", r "1.0" 1.0), ("Iyy", r "1.0" 1.0), ("Iyz", r "1.0" 1.0), ("Izz", r "1.0" 1.0)]),
    ("link16", m [("mass", r "1.0" 1.0), ("CoM_x", r "1.0" 1.0), ("CoM_y", r "1.0" 1.0), ("CoM_z", r "1.0" 1.0), ("Ixx", r "1.0" 1.0), ("Ixy",
      r "1.0" 1.0), ("Ixz", r "1.0" 1.0), ("Iyy", r "1.0" 1.0), ("Iyz", r "1.0" 1.0), ("Izz", r "1.0" 1.0)]),
    ("link17", m [("mass", r "1.0" 1.0), ("CoM_x", r "1.0" 1.0), ("CoM_y", r "1.0" 1.0), ("CoM_z", r "1.0" 1.0), ("Ixx", r "1.0" 1.0), ("Ixy",
      r "1.0" 1.0), ("Ixz", r "1.0" 1.0), ("Iyy", r "1.0" 1.0), ("Iyz", r "1.0" 1.0), ("Izz", r "1.0" 1.0)]),
    ("link18", m [("mass", r "1.0" 1.0), ("CoM_x", r "1.0" 1.0), ("CoM_y", r "1.0" 1.0), ("CoM_z", r "1.0" 1.0), ("Ixx", r "1.0" 1.0), ("Ixy",
      r "1.0" 1.0), ("Ixz", r "1.0" 1.0), ("Iyy", r "1.0" 1.0), ("Iyz", r "1.0" 1.0), ("Izz", r "1.0" 1.0)]),
    ("link19", m [("mass", r "1.0" 1.0), ("CoM_x", r "1.0" 1.0), ("CoM_y", r "1.0" 1.0), ("CoM_z", r "1.0" 1.0), ("Ixx", r "1.0" 1.0), ("Ixy",
      r "1.0" 1.0), ("Ixz", r "1.0" 1.0), ("Iyy", r "1.0" 1.0), ("Iyz", r "1.0" 1.0), ("Izz", r "1.0" 1.0)]),
    ("link20", m [("mass", r "1.0" 1.0), ("CoM_x", r "1.0" 1.0), ("CoM_y", r "1.0" 1.0), ("CoM_z", r "1.0" 1.0), ("Ixx", r "1.0" 1.0), ("Ixy",
      r "1.0" 1.0), ("Ixz", r "1.0" 1.0), ("Iyy", r "1.0" 1.0), ("Iyz", r "1.0" 1.0), ("Izz", r "1.0" 1.0)]),
    ("link21", m [("mass", r "1.0" 1.0), ("CoM_x", r "1.0" 1.0), ("CoM_y", r "1.0" 1.0), ("CoM_z", r "1.0" 1.0), ("Ixx", r "1.0" 1.0), ("Ixy",
      r "1.0" 1.0), ("Ixz", r "1.0" 1.0), ("Iyy", r "1.0" 1.0), ("Iyz", r "1.0" 1.0), ("Izz", r "1.0" 1.0)]),
    ("link22", m [("mass", r "1.0" 1.0), ("CoM_x", r "1.0" 1.0), ("CoM_y", r "1.0" 1.0), ("CoM_z", r "1.0" 1.0), ("Ixx", r "1.0" 1.0), ("Ixy",
      r "1.0" 1.0), ("Ixz", r "1.0" 1.0), ("Iyy", r "1.0" 1.0), ("Iyz", r "1.0" 1.0), ("Izz", r "1.0" 1.0)]),
    ("link23", m [("mass", r "1.0" 1.0), ("CoM_x", r "1.0" 1.0), ("CoM_y", r "1.0" 1.0), ("CoM_z", r "1.0" 1.0), ("Ixx", r "1.0" 1.0), ("Ixy",
      r "1.0" 1.0), ("Ixz", r "1.0" 1.0), ("Iyy", r "1.0" 1.0), ("Iyz", r "1.0" 1.0), ("Izz", r "1.0" 1.0)]),
    ("link24", m [("mass", r "1.0" 1.0), ("CoM_x", r "1.0" 1.0), ("CoM_y", r "1.0" 1.0), ("CoM_z", r "1.0" 1.0), ("Ixx", r "1.0" 1.0), ("Ixy",
      r "1.0" 1.0), ("Ixz", r "1.0" 1.0), ("Iyy", r "1.0" 1.0), ("Iyz", r "1.0" 1.0), ("Izz", r "1.0" 1.0)]),
    ("link25", m [("mass", r "1.0" 1.0), ("CoM_x", r "1.0" 1.0), ("CoM_y", r "1.0" 1.0), ("CoM_z", r "1.0" 1.0), ("Ixx", r "1.0" 1.0), ("Ixy",
      r "1.0" 1.0), ("Ixz", r "1.0" 1.0), ("Iyy", r "1.0" 1.0), ("Iyz", r "1.0" 1.0), ("Izz", r "1.0" 1.0)]),
    ("link26", m [("mass", r "1.0" 1.0), ("CoM_x", r "1.0" 1.0), ("CoM_y", r "1.0" 1.0), ("CoM_z", r "1.0" 1.0), ("Ixx", r "1.0" 1.0), ("Ixy",
      r "1.0" 1.0), ("Ixz", r "1.0" 1.0), ("Iyy", r "1.0" 1.0), ("Iyz", r "1.0" 1.0), ("Izz", r "1.0" 1.0)]),
    ("link27", m [("mass", r "1.0" 1.0), ("CoM_x", r "1.0" 1.0), ("CoM_y", r "1.0" 1.0), ("CoM_z", r "1.0" 1.0), ("Ixx", r "1.0" 1.0), ("Ixy",
      r "1.0" 1.0), ("Ixz", r "1.0" 1.0), ("Iyy", r "1.0" 1.0), ("Iyz", r "1.0" 1.0), ("Izz", r "1.0" 1.0)]),
    ("link28", m [("mass", r "1.0" 1.0), ("CoM_x", r "1.0" 1.0), ("CoM_y", r "1.0" 1.0), ("CoM_z", r "1.0" 1.0), ("Ixx", r "1.0" 1.0), ("Ixy",
      r "1.0" 1.0), ("Ixz", r "1.0" 1.0), ("Iyy", r "1.0" 1.0), ("Iyz", r "1.0" 1.0), ("Izz", r "1.0" 1.0)]),
    ("link29", m [("mass", r "1.0" 1.0), ("CoM_x", r "1.0" 1.0), ("CoM_y", r "1.0" 1.0), ("CoM_z", r "1.0" 1.0), ("Ixx", r "1.0" 1.0), ("Ixy",
      r "1.0" 1.0), ("Ixz", r "1.0" 1.0), ("Iyy", r "1.0" 1.0), ("Iyz", r "1.0" 1.0), ("Izz", r "1.0" 1.0)]),
    ("link30", m [("mass", r "1.0" 1.0), ("CoM_x", r "1.0" 1.0), ("CoM_y", r "1.0" 1.0), ("CoM_z", r "1.0" 1.0), ("Ixx", r "1.0" 1.0), ("Ixy",
      r "1.0" 1.0), ("Ixz", r "1.0" 1.0), ("Iyy", r "1.0" 1.0), ("Iyz", r "1.0" 1.0), ("Izz", r "1.0" 1.0)])])]

end

end Thunder.Ship
