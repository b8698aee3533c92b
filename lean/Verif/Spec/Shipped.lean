import Verif.Spec.System

/-!
# The robots of the repository

What the robot files say, as tables: kinematics, inertial parameters by link, friction, elastic joints and flags.
-/

namespace Thunder.Spec.Ship

noncomputable section

/-- Entries of a list. -/
def at_ {α : Type} [Zero α] (l : List α) (i : ℕ) : α := l.getD i 0
/-- Entries of a table with ten columns. -/
def rows {α : Type} [Zero α] (l : List (List α)) (i : ℕ) : α := (l.getD (i / 10) []).getD (i % 10) 0

/-- What `src/thunder/robots/RRR/RRR.yaml` says. -/
def RRRC : Conf where
  types := ["R", "R", "R"]
  elastic := false
  kO := 0
  dO := 0
  dmO := 0
  dlO := 0
  dh := at_ [0, 0, 1, 0, 1, 1.5707963267948966, 0, 0, 1, 0, 0, 0]
  w2l := at_ [0, 0, 0, 0, 0, 0]
  ee := at_ [1, 0, 0, 0, 0, (-1.5707963267948966)]
  g := at_ [0, 0, (-9.81)]
  dyn := rows [
    [5.0, 2.0, 2.0, 2.0, 2.0, 2.0, 2.0, 2.0, 2.0, 2.0],
    [3.0, 2.0, 2.0, 2.0, 2.0, 2.0, 2.0, 2.0, 2.0, 2.0],
    [1.0, 2.0, 0.3, 2.0, 2.0, 2.0, 2.0, 2.0, 2.0, 2.0]]
  dl := at_ []
  K := at_ []
  D := at_ []
  Dm := at_ []
  Mm := at_ []
  fdh := at_ [0, 0, 0, 0, 0, 0, 0, 0, 0, 0, 0, 0]
  fw2l := at_ [0, 0, 0, 0, 0, 0]
  fee := at_ [0, 0, 0, 0, 0, 0]
  fg := at_ [0, 0, 0]
  fdyn := rows [
    [1, 1, 1, 1, 1, 1, 1, 1, 1, 1],
    [1, 1, 1, 1, 1, 1, 1, 1, 1, 1],
    [1, 1, 1, 1, 1, 1, 1, 1, 1, 1]]
  fdl := at_ []
  fK := at_ []
  fD := at_ []
  fDm := at_ []
  fMm := at_ []

/-- What `src/thunder/robots/RRR_sea/seaRRR.yaml` says. -/
def seaRRRC : Conf where
  types := ["R_SEA", "R_SEA", "R_SEA"]
  elastic := true
  kO := 1
  dO := 0
  dmO := 1
  dlO := 2
  dh := at_ [0, 0, 1, 0, 0, 1.5707963267948966, 0, 0, 1, 0, 0, 0]
  w2l := at_ [0, 0, 0, 0, 0, 0]
  ee := at_ [1, 0, 0, 0, 0, (-1.5707963267948966)]
  g := at_ [0, 0, (-9.81)]
  dyn := rows [
    [1.0, 1.0, 1.0, 1.0, 1.0, 1.0, 1.0, 1.0, 1.0, 1.0],
    [1.0, 1.0, 1.0, 1.0, 1.0, 1.0, 1.0, 1.0, 1.0, 1.0],
    [1.0, 1.0, 1.0, 1.0, 1.0, 1.0, 1.0, 1.0, 1.0, 1.0]]
  dl := at_ [0.1, 0.01, 0.1, 0.01, 0.1, 0.01]
  K := at_ [1.0, 1.0, 1.0]
  D := at_ []
  Dm := at_ [0.1, 0.1, 0.1]
  Mm := at_ [1.0, 1.0, 1.0]
  fdh := at_ [0, 0, 0, 0, 0, 0, 0, 0, 0, 0, 0, 0]
  fw2l := at_ [0, 0, 0, 0, 0, 0]
  fee := at_ [0, 0, 0, 0, 0, 0]
  fg := at_ [0, 0, 0]
  fdyn := rows [
    [0, 0, 0, 0, 0, 0, 0, 0, 0, 0],
    [0, 0, 0, 0, 0, 0, 0, 0, 0, 0],
    [0, 0, 0, 0, 0, 0, 0, 0, 0, 0]]
  fdl := at_ [0, 0, 0, 0, 0, 0]
  fK := at_ [0, 0, 0]
  fD := at_ []
  fDm := at_ [0, 0, 0]
  fMm := at_ [0, 0, 0]

/-- What `src/thunder/robots/ego/egoRightArm.yaml` says. -/
def egoC : Conf where
  types := ["R_SEA", "R_SEA", "R_SEA", "R_SEA", "R_SEA"]
  elastic := true
  kO := 3
  dO := 0
  dmO := 2
  dlO := 1
  dh := at_ [0, 1.5707963267948966, 0.085, 1.5707963267948966, 0, 1.5707963267948966, 0.0, 1.5707963267948966, 0, (-1.5707963267948966), 0.17,
    (-1.5707963267948966), 0, (-1.5707963267948966), 0, 0, 0, 1.5707963267948966, 0.14, 0]
  w2l := at_ [0, 0, 0, 0.174532922, 0.0, (-0.1047197530)]
  ee := at_ [0, 0, 0.1, 3.1415926535897932, 1.5707963267948966, 0]
  g := at_ [0, 0, (-9.81)]
  dyn := rows [
    [0.5, 0.0, 0.0, (-0.085), 0.01, 0.0, 0.0, 0.01, 0.0, 0.01],
    [0.6, 0.0, 0.0, 0.0, 0.01, 0.0, 0.0, 0.01, 0.0, 0.01],
    [0.6, 0.0, 0.0, (-0.1), 0.01, 0.0, 0.0, 0.01, 0.0, 0.01],
    [0.6, 0.0, 0.0, 0.0, 0.01, 0.0, 0.0, 0.01, 0.0, 0.01],
    [1.0, 0.0, 0.0, 0.15, 0.01, 0.0, 0.0, 0.01, 0.0, 0.01]]
  dl := at_ [0.1, 0.1, 0.1, 0.1, 0.1]
  K := at_ [2.5, 0.0, 50.0, 2.5, 0.0, 50.0, 2.5, 0.0, 50.0, 2.5, 0.0, 50.0, 2.5, 0.0, 50.0]
  D := at_ []
  Dm := at_ [10, 0.1, 10, 0.1, 10, 0.1, 10, 0.1, 10, 0.1]
  Mm := at_ [0.1, 0.1, 0.1, 0.1, 0.1]
  fdh := at_ [0, 0, 0, 0, 0, 0, 0, 0, 0, 0, 0, 0, 0, 0, 0, 0, 0, 0, 0, 0]
  fw2l := at_ [1, 1, 1, 0, 0, 0]
  fee := at_ [1, 1, 1, 0, 0, 0]
  fg := at_ [0, 0, 0]
  fdyn := rows [
    [1, 1, 1, 1, 1, 1, 1, 1, 1, 1],
    [1, 1, 1, 1, 1, 1, 1, 1, 1, 1],
    [1, 1, 1, 1, 1, 1, 1, 1, 1, 1],
    [1, 1, 1, 1, 1, 1, 1, 1, 1, 1],
    [1, 1, 1, 1, 1, 1, 1, 1, 1, 1]]
  fdl := at_ [1, 1, 1, 1, 1]
  fK := at_ [1, 1, 1, 1, 1, 1, 1, 1, 1, 1, 1, 1, 1, 1, 1]
  fD := at_ []
  fDm := at_ [1, 1, 1, 1, 1, 1, 1, 1, 1, 1]
  fMm := at_ [1, 1, 1, 1, 1]

/-- What `src/thunder/robots/franka/franka.yaml` says. -/
def frankaC : Conf where
  types := ["R", "R", "R", "R", "R", "R", "R"]
  elastic := false
  kO := 0
  dO := 0
  dmO := 0
  dlO := 2
  dh := at_ [0, 0, 0.3330, 0, 0, (-1.5707963267948966), 0, 0, 0, 1.5707963267948966, 0.3160, 0, 0.0825, 1.5707963267948966, 0, 0, (-0.0825),
    (-1.5707963267948966), 0.384, 0, 0, 1.5707963267948966, 0, 0, 0.088, 1.5707963267948966, 0.107, 0]
  w2l := at_ [0, 0, 0, 0, 0, 0]
  ee := at_ [0, 0, 0, 0, 0, 0]
  g := at_ [0, 0, (-9.81)]
  dyn := rows [
    [4.970684, 3.875e-3, 2.081e-3, (-4.762e-2), 7.0337e-1, (-1.3900e-4), 6.7720e-3, 7.0661e-1, 1.9169e-2, 9.1170e-3],
    [0.646926, (-3.141e-3), (-2.872e-2), 3.495e-3, 7.9620e-3, (-3.9250e-3), 1.0254e-02, 2.8110e-02, 7.0400e-04, 2.5995e-02],
    [3.228604, 2.7518e-02, 3.9252e-02, (-6.6502e-02), 3.7242e-02, (-4.7610e-03), (-1.1396e-02), 3.6155e-02, (-1.2805e-02), 1.0830e-02],
    [3.587895, (-5.317e-02), 1.04419e-01, 2.7454e-02, 2.5853e-02, 7.7960e-03, (-1.3320e-03), 1.9552e-02, 8.6410e-03, 2.8323e-02],
    [1.225946, (-1.1953e-02), 4.1065e-02, (-3.8437e-02), 3.5549e-02, (-2.1170e-03), (-4.0370e-03), 2.9474e-02, 2.2900e-04, 8.6270e-03],
    [1.666555, 6.0149e-02, (-1.4117e-02), (-1.0517e-02), 1.9640e-03, 1.0900e-04, (-1.1580e-03), 4.3540e-03, 3.4100e-04, 5.4330e-03],
    [0.735522, 1.0517e-02, (-4.252e-03), (-4.5403e-02), 1.2516e-02, (-4.28e-04), (-1.196e-03), 1.0027e-02, (-7.41e-04), 4.815e-03]]
  dl := at_ [0.1, 0.01, 0.1, 0.01, 0.1, 0.01, 0.1, 0.01, 0.1, 0.01, 0.1, 0.01, 0.1, 0.01]
  K := at_ []
  D := at_ []
  Dm := at_ []
  Mm := at_ []
  fdh := at_ [0, 0, 0, 0, 0, 0, 0, 0, 0, 0, 0, 0, 0, 0, 0, 0, 0, 0, 0, 0, 0, 0, 0, 0, 0, 0, 0, 0]
  fw2l := at_ [0, 0, 0, 0, 0, 0]
  fee := at_ [1, 1, 1, 0, 0, 0]
  fg := at_ [0, 0, 0]
  fdyn := rows [
    [1, 1, 1, 1, 1, 1, 1, 1, 1, 1],
    [1, 1, 1, 1, 1, 1, 1, 1, 1, 1],
    [1, 1, 1, 1, 1, 1, 1, 1, 1, 1],
    [1, 1, 1, 1, 1, 1, 1, 1, 1, 1],
    [1, 1, 1, 1, 1, 1, 1, 1, 1, 1],
    [1, 1, 1, 1, 1, 1, 1, 1, 1, 1],
    [1, 1, 1, 1, 1, 1, 1, 1, 1, 1]]
  fdl := at_ [1, 1, 1, 1, 1, 1, 1, 1, 1, 1, 1, 1, 1, 1]
  fK := at_ []
  fD := at_ []
  fDm := at_ []
  fMm := at_ []

/-- What `src/thunder/robots/frankaWrist/frankaWrist.yaml` says. -/
def wristC : Conf where
  types := ["R", "R", "R", "R", "R", "R", "R", "R_SEA"]
  elastic := true
  kO := 1
  dO := 0
  dmO := 2
  dlO := 2
  dh := at_ [0, 0, 0.3330, 0, 0, (-1.5707963267948966), 0, 0, 0, 1.5707963267948966, 0.3160, 0, 0.0825, 1.5707963267948966, 0, 0, (-0.0825),
    (-1.5707963267948966), 0.384, 0, 0, 1.5707963267948966, 0, 0, 0.088, 1.5707963267948966, 0.161, 0, 0.10, 1.5707963267948966, 0, 0]
  w2l := at_ [0, 0, 0, 0, 0, 0]
  ee := at_ [0, 0, 0, 0, 0, 0]
  g := at_ [0, 0, (-9.81)]
  dyn := rows [
    [4.970684, 3.875e-3, 2.081e-3, (-4.762e-2), 7.0337e-1, (-1.3900e-4), 6.7720e-3, 7.0661e-1, 1.9169e-2, 9.1170e-3],
    [0.646926, (-3.141e-3), (-2.872e-2), 3.495e-3, 7.9620e-3, (-3.9250e-3), 1.0254e-02, 2.8110e-02, 7.0400e-04, 2.5995e-02],
    [3.228604, 2.7518e-02, 3.9252e-02, (-6.6502e-02), 3.7242e-02, (-4.7610e-03), (-1.1396e-02), 3.6155e-02, (-1.2805e-02), 1.0830e-02],
    [3.587895, (-5.317e-02), 1.04419e-01, 2.7454e-02, 2.5853e-02, 7.7960e-03, (-1.3320e-03), 1.9552e-02, 8.6410e-03, 2.8323e-02],
    [1.225946, (-1.1953e-02), 4.1065e-02, (-3.8437e-02), 3.5549e-02, (-2.1170e-03), (-4.0370e-03), 2.9474e-02, 2.2900e-04, 8.6270e-03],
    [1.666555, 6.0149e-02, (-1.4117e-02), (-1.0517e-02), 1.9640e-03, 1.0900e-04, (-1.1580e-03), 4.3540e-03, 3.4100e-04, 5.4330e-03],
    [1.66560124, 0.0292, 0.0069, (-0.0413), 1.2516e-02, (-4.2800e-04), (-1.1960e-03), 1.0027e-02, (-7.4100e-04), 4.8150e-03],
    [0.86, 0.05, 0.0, 0.0, 0.001, 0, 0, 0.001, 0, 0.001]]
  dl := at_ [0.1, 0.01, 0.1, 0.01, 0.1, 0.01, 0.1, 0.01, 0.1, 0.01, 0.1, 0.01, 0.1, 0.01, 0.1, 0.01]
  K := at_ [2.5]
  D := at_ []
  Dm := at_ [10, 0.1]
  Mm := at_ [0.1]
  fdh := at_ [0, 0, 0, 0, 0, 0, 0, 0, 0, 0, 0, 0, 0, 0, 0, 0, 0, 0, 0, 0, 0, 0, 0, 0, 0, 0, 0, 0, 0, 0, 0, 0]
  fw2l := at_ [0, 0, 0, 0, 0, 0]
  fee := at_ [1, 1, 1, 0, 0, 0]
  fg := at_ [0, 0, 0]
  fdyn := rows [
    [0, 0, 0, 0, 0, 0, 0, 0, 0, 0],
    [0, 0, 0, 0, 0, 0, 0, 0, 0, 0],
    [0, 0, 0, 0, 0, 0, 0, 0, 0, 0],
    [0, 0, 0, 0, 0, 0, 0, 0, 0, 0],
    [0, 0, 0, 0, 0, 0, 0, 0, 0, 0],
    [0, 0, 0, 0, 0, 0, 0, 0, 0, 0],
    [0, 0, 0, 0, 0, 0, 0, 0, 0, 0],
    [0, 0, 0, 0, 0, 0, 0, 0, 0, 0]]
  fdl := at_ [1, 1, 1, 1, 1, 1, 1, 1, 1, 1, 1, 1, 1, 1, 1, 1]
  fK := at_ [1]
  fD := at_ []
  fDm := at_ [1, 1]
  fMm := at_ [1]

/-- What `src/thunder/robots/bifrank/lewis.yaml` says. -/
def lewisC : Conf where
  types := ["R", "R", "R", "R", "R", "R", "R", "R"]
  elastic := false
  kO := 0
  dO := 0
  dmO := 0
  dlO := 2
  dh := at_ [0, 0, 0.04, 0, 0, (-0.9), 0.4430, (-0.15), 0, (-1.5707963267948966), 0, 0, 0, 1.5707963267948966, 0.3160, 0, 0.0825, 1.5707963267948966,
    0, 0, (-0.0825), (-1.5707963267948966), 0.384, 0, 0, 1.5707963267948966, 0, 0, 0.088, 1.5707963267948966, 0.107, 0]
  w2l := at_ [0, 0, 0, 0, 0, 0]
  ee := at_ [0, 0, 0, 0, 0, 0]
  g := at_ [0, 0, (-9.81)]
  dyn := rows [
    [5.43, (-0.041018), 0.049974, 0.2, 0.00315, 8.2904E-07, 0.00015, 0.00388, 8.2299E-06, 0.004285],
    [2.9274653454, 0.0000004128, (-0.0181251324), (-0.0386035970), 0.0239273164851079, 0.0000133179034557, (-0.000114047749186), 0.0224821613275756,
      (-0.001995032062824), 0.0063500982585300],
    [2.9355370338, 0.0031828864, (-0.0743221644), 0.0088146084, 0.0419389462576094, 0.0002025733152109, 0.0040777842271799, 0.0251451488501472,
      (-0.004225215800657), 0.0617021447288883],
    [2.2449013699, 0.0407015686, (-0.0048200565), (-0.0289730823), 0.0241014254724088, 0.0024046945590421, (-0.002856269270114), 0.0197405326670817,
      (-0.002104212683891), 0.0190444944822448],
    [2.6155955791, (-0.0459100965), 0.0630492960, (-0.0085187868), 0.0345299832191320, 0.0132255226598281, 0.0101514299848411, 0.0288816219330490,
      (-0.000976283387070), 0.0412547117114664],
    [2.3271207594, (-0.0016039605), 0.0292536262, (-0.0972965990), 0.0516102784636628, (-0.005715173387783), (-0.003567316762587),
      0.0478772971337148, 0.0106739851085359, 0.0164236255793572],
    [1.8170376524, 0.0597131221, (-0.0410294666), (-0.0101692726), 0.0054123335943834, 0.0061934563602858, 0.0014219289306117, 0.0140583295455099,
      (-0.001314075374112), 0.0160808179242125],
    [0.6271432862, 0.0045225817, 0.0086261921, (-0.0161633251), 0.0002109238915010, (-0.000024332991144), 0.0000456448039377, 0.0001771856800241,
      0.0000874407022322, 0.0000599319059965]]
  dl := at_ [0.1, 0.01, 0.1, 0.01, 0.1, 0.01, 0.1, 0.01, 0.1, 0.01, 0.1, 0.01, 0.1, 0.01, 0.1, 0.01]
  K := at_ []
  D := at_ []
  Dm := at_ []
  Mm := at_ []
  fdh := at_ [0, 0, 0, 0, 0, 0, 0, 0, 0, 0, 0, 0, 0, 0, 0, 0, 0, 0, 0, 0, 0, 0, 0, 0, 0, 0, 0, 0, 0, 0, 0, 0]
  fw2l := at_ [1, 1, 1, 0, 0, 0]
  fee := at_ [1, 1, 1, 0, 0, 0]
  fg := at_ [0, 0, 0]
  fdyn := rows [
    [1, 1, 1, 1, 1, 1, 1, 1, 1, 1],
    [1, 1, 1, 1, 1, 1, 1, 1, 1, 1],
    [1, 1, 1, 1, 1, 1, 1, 1, 1, 1],
    [1, 1, 1, 1, 1, 1, 1, 1, 1, 1],
    [1, 1, 1, 1, 1, 1, 1, 1, 1, 1],
    [1, 1, 1, 1, 1, 1, 1, 1, 1, 1],
    [1, 1, 1, 1, 1, 1, 1, 1, 1, 1],
    [1, 1, 1, 1, 1, 1, 1, 1, 1, 1]]
  fdl := at_ [1, 1, 1, 1, 1, 1, 1, 1, 1, 1, 1, 1, 1, 1, 1, 1]
  fK := at_ []
  fD := at_ []
  fDm := at_ []
  fMm := at_ []

/-- What `src/thunder/robots/bifrank/richard.yaml` says. -/
def richardC : Conf where
  types := ["R", "R", "R", "R", "R", "R", "R", "R"]
  elastic := false
  kO := 0
  dO := 0
  dmO := 0
  dlO := 2
  dh := at_ [0, 0, 0.04, 0, 0, 0.9, 0.4430, 0.15, 0, (-1.5707963267948966), 0, 0, 0, 1.5707963267948966, 0.3160, 0, 0.0825, 1.5707963267948966, 0, 0,
    (-0.0825), (-1.5707963267948966), 0.384, 0, 0, 1.5707963267948966, 0, 0, 0.088, 1.5707963267948966, 0.107, 0]
  w2l := at_ [0, 0, 0, 0, 0, 0]
  ee := at_ [0, 0, 0, 0, 0, 0]
  g := at_ [0, 0, (-9.81)]
  dyn := rows [
    [5.43, (-0.041018), 0.049974, 0.2, 0.00315, 8.2904E-07, 0.00015, 0.00388, 8.2299E-06, 0.004285],
    [2.9274653454, 0.0000004128, (-0.0181251324), (-0.0386035970), 0.0239273164851079, 0.0000133179034557, (-0.000114047749186), 0.0224821613275756,
      (-0.001995032062824), 0.0063500982585300],
    [2.9355370338, 0.0031828864, (-0.0743221644), 0.0088146084, 0.0419389462576094, 0.0002025733152109, 0.0040777842271799, 0.0251451488501472,
      (-0.004225215800657), 0.0617021447288883],
    [2.2449013699, 0.0407015686, (-0.0048200565), (-0.0289730823), 0.0241014254724088, 0.0024046945590421, (-0.002856269270114), 0.0197405326670817,
      (-0.002104212683891), 0.0190444944822448],
    [2.6155955791, (-0.0459100965), 0.0630492960, (-0.0085187868), 0.0345299832191320, 0.0132255226598281, 0.0101514299848411, 0.0288816219330490,
      (-0.000976283387070), 0.0412547117114664],
    [2.3271207594, (-0.0016039605), 0.0292536262, (-0.0972965990), 0.0516102784636628, (-0.005715173387783), (-0.003567316762587),
      0.0478772971337148, 0.0106739851085359, 0.0164236255793572],
    [1.8170376524, 0.0597131221, (-0.0410294666), (-0.0101692726), 0.0054123335943834, 0.0061934563602858, 0.0014219289306117, 0.0140583295455099,
      (-0.001314075374112), 0.0160808179242125],
    [0.6271432862, 0.0045225817, 0.0086261921, (-0.0161633251), 0.0002109238915010, (-0.000024332991144), 0.0000456448039377, 0.0001771856800241,
      0.0000874407022322, 0.0000599319059965]]
  dl := at_ [0.1, 0.01, 0.1, 0.01, 0.1, 0.01, 0.1, 0.01, 0.1, 0.01, 0.1, 0.01, 0.1, 0.01, 0.1, 0.01]
  K := at_ []
  D := at_ []
  Dm := at_ []
  Mm := at_ []
  fdh := at_ [0, 0, 0, 0, 0, 0, 0, 0, 0, 0, 0, 0, 0, 0, 0, 0, 0, 0, 0, 0, 0, 0, 0, 0, 0, 0, 0, 0, 0, 0, 0, 0]
  fw2l := at_ [1, 1, 1, 0, 0, 0]
  fee := at_ [1, 1, 1, 0, 0, 0]
  fg := at_ [0, 0, 0]
  fdyn := rows [
    [1, 1, 1, 1, 1, 1, 1, 1, 1, 1],
    [1, 1, 1, 1, 1, 1, 1, 1, 1, 1],
    [1, 1, 1, 1, 1, 1, 1, 1, 1, 1],
    [1, 1, 1, 1, 1, 1, 1, 1, 1, 1],
    [1, 1, 1, 1, 1, 1, 1, 1, 1, 1],
    [1, 1, 1, 1, 1, 1, 1, 1, 1, 1],
    [1, 1, 1, 1, 1, 1, 1, 1, 1, 1],
    [1, 1, 1, 1, 1, 1, 1, 1, 1, 1]]
  fdl := at_ [1, 1, 1, 1, 1, 1, 1, 1, 1, 1, 1, 1, 1, 1, 1, 1]
  fK := at_ []
  fD := at_ []
  fDm := at_ []
  fMm := at_ []

/-- What `src/thunder/robots/testRobots/R3.yaml` says. -/
def R3C : Conf where
  types := ["R", "R", "R"]
  elastic := false
  kO := 0
  dO := 0
  dmO := 0
  dlO := 0
  dh := at_ [0, 0, 1, 0, 0, 1.5707963267948966, 0, 0, 1, 0, 0, 0]
  w2l := at_ [0, 0, 0, 0, 0, 0]
  ee := at_ [1, 0, 0, 0, 0, (-1.5707963267948966)]
  g := at_ [0, 0, (-9.81)]
  dyn := rows [
    [1.0, 1.0, 1.0, 1.0, 1.0, 1.0, 1.0, 1.0, 1.0, 1.0],
    [1.0, 1.0, 1.0, 1.0, 1.0, 1.0, 1.0, 1.0, 1.0, 1.0],
    [1.0, 1.0, 1.0, 1.0, 1.0, 1.0, 1.0, 1.0, 1.0, 1.0]]
  dl := at_ []
  K := at_ []
  D := at_ []
  Dm := at_ []
  Mm := at_ []
  fdh := at_ [0, 0, 0, 0, 0, 0, 0, 0, 0, 0, 0, 0]
  fw2l := at_ [0, 0, 0, 0, 0, 0]
  fee := at_ [0, 0, 0, 0, 0, 0]
  fg := at_ [0, 0, 0]
  fdyn := rows [
    [1, 1, 1, 1, 1, 1, 1, 1, 1, 1],
    [1, 1, 1, 1, 1, 1, 1, 1, 1, 1],
    [1, 1, 1, 1, 1, 1, 1, 1, 1, 1]]
  fdl := at_ []
  fK := at_ []
  fD := at_ []
  fDm := at_ []
  fMm := at_ []

/-- What `src/thunder/robots/testRobots/R5.yaml` says. -/
def R5C : Conf where
  types := ["R", "R", "R", "R", "R"]
  elastic := false
  kO := 0
  dO := 0
  dmO := 0
  dlO := 0
  dh := at_ [0, 0, 1, 0, 0, 1.5707963267948966, 0, 0, 0, (-1.5707963267948966), 0, 0, 0, 1.5707963267948966, 2, 0, 1, 0, 0, 0]
  w2l := at_ [0, 0, 0, 0, 0, 0]
  ee := at_ [1, 0, 0, 0, 0, (-1.5707963267948966)]
  g := at_ [0, 0, (-9.81)]
  dyn := rows [
    [1.0, 1.0, 1.0, 1.0, 1.0, 1.0, 1.0, 1.0, 1.0, 1.0],
    [1.0, 1.0, 1.0, 1.0, 1.0, 1.0, 1.0, 1.0, 1.0, 1.0],
    [1.0, 1.0, 1.0, 1.0, 1.0, 1.0, 1.0, 1.0, 1.0, 1.0],
    [1.0, 1.0, 1.0, 1.0, 1.0, 1.0, 1.0, 1.0, 1.0, 1.0],
    [1.0, 1.0, 1.0, 1.0, 1.0, 1.0, 1.0, 1.0, 1.0, 1.0]]
  dl := at_ []
  K := at_ []
  D := at_ []
  Dm := at_ []
  Mm := at_ []
  fdh := at_ [0, 0, 0, 0, 0, 0, 0, 0, 0, 0, 0, 0, 0, 0, 0, 0, 0, 0, 0, 0]
  fw2l := at_ [0, 0, 0, 0, 0, 0]
  fee := at_ [0, 0, 0, 0, 0, 0]
  fg := at_ [0, 0, 0]
  fdyn := rows [
    [1, 1, 1, 1, 1, 1, 1, 1, 1, 1],
    [1, 1, 1, 1, 1, 1, 1, 1, 1, 1],
    [1, 1, 1, 1, 1, 1, 1, 1, 1, 1],
    [1, 1, 1, 1, 1, 1, 1, 1, 1, 1],
    [1, 1, 1, 1, 1, 1, 1, 1, 1, 1]]
  fdl := at_ []
  fK := at_ []
  fD := at_ []
  fDm := at_ []
  fMm := at_ []

/-- What `src/thunder/robots/testRobots/R7.yaml` says. -/
def R7C : Conf where
  types := ["R", "R", "R", "R", "R", "R", "R"]
  elastic := false
  kO := 0
  dO := 0
  dmO := 0
  dlO := 0
  dh := at_ [0, 0, 1, 0, 0, 1.5707963267948966, 0, 0, 0, (-1.5707963267948966), 0, 0, 0, 1.5707963267948966, 2, 0, 0, (-1.5707963267948966), 0, 0, 0,
    1.5707963267948966, 2, 0, 1, 0, 0, 0]
  w2l := at_ [0, 0, 0, 0, 0, 0]
  ee := at_ [1, 0, 0, 0, 0, (-1.5707963267948966)]
  g := at_ [0, 0, (-9.81)]
  dyn := rows [
    [1.0, 1.0, 1.0, 1.0, 1.0, 1.0, 1.0, 1.0, 1.0, 1.0],
    [1.0, 1.0, 1.0, 1.0, 1.0, 1.0, 1.0, 1.0, 1.0, 1.0],
    [1.0, 1.0, 1.0, 1.0, 1.0, 1.0, 1.0, 1.0, 1.0, 1.0],
    [1.0, 1.0, 1.0, 1.0, 1.0, 1.0, 1.0, 1.0, 1.0, 1.0],
    [1.0, 1.0, 1.0, 1.0, 1.0, 1.0, 1.0, 1.0, 1.0, 1.0],
    [1.0, 1.0, 1.0, 1.0, 1.0, 1.0, 1.0, 1.0, 1.0, 1.0],
    [1.0, 1.0, 1.0, 1.0, 1.0, 1.0, 1.0, 1.0, 1.0, 1.0]]
  dl := at_ []
  K := at_ []
  D := at_ []
  Dm := at_ []
  Mm := at_ []
  fdh := at_ [0, 0, 0, 0, 0, 0, 0, 0, 0, 0, 0, 0, 0, 0, 0, 0, 0, 0, 0, 0, 0, 0, 0, 0, 0, 0, 0, 0]
  fw2l := at_ [0, 0, 0, 0, 0, 0]
  fee := at_ [0, 0, 0, 0, 0, 0]
  fg := at_ [0, 0, 0]
  fdyn := rows [
    [1, 1, 1, 1, 1, 1, 1, 1, 1, 1],
    [1, 1, 1, 1, 1, 1, 1, 1, 1, 1],
    [1, 1, 1, 1, 1, 1, 1, 1, 1, 1],
    [1, 1, 1, 1, 1, 1, 1, 1, 1, 1],
    [1, 1, 1, 1, 1, 1, 1, 1, 1, 1],
    [1, 1, 1, 1, 1, 1, 1, 1, 1, 1],
    [1, 1, 1, 1, 1, 1, 1, 1, 1, 1]]
  fdl := at_ []
  fK := at_ []
  fD := at_ []
  fDm := at_ []
  fMm := at_ []

/-- What `src/thunder/robots/testRobots/R9.yaml` says. -/
def R9C : Conf where
  types := ["R", "R", "R", "R", "R", "R", "R", "R", "R"]
  elastic := false
  kO := 0
  dO := 0
  dmO := 0
  dlO := 0
  dh := at_ [0, 0, 1, 0, 0, 1.5707963267948966, 0, 0, 0, (-1.5707963267948966), 0, 0, 0, 1.5707963267948966, 2, 0, 0, (-1.5707963267948966), 0, 0, 0,
    1.5707963267948966, 2, 0, 0, (-1.5707963267948966), 0, 0, 0, 1.5707963267948966, 2, 0, 1, 0, 0, 0]
  w2l := at_ [0, 0, 0, 0, 0, 0]
  ee := at_ [1, 0, 0, 0, 0, (-1.5707963267948966)]
  g := at_ [0, 0, (-9.81)]
  dyn := rows [
    [1.0, 1.0, 1.0, 1.0, 1.0, 1.0, 1.0, 1.0, 1.0, 1.0],
    [1.0, 1.0, 1.0, 1.0, 1.0, 1.0, 1.0, 1.0, 1.0, 1.0],
    [1.0, 1.0, 1.0, 1.0, 1.0, 1.0, 1.0, 1.0, 1.0, 1.0],
    [1.0, 1.0, 1.0, 1.0, 1.0, 1.0, 1.0, 1.0, 1.0, 1.0],
    [1.0, 1.0, 1.0, 1.0, 1.0, 1.0, 1.0, 1.0, 1.0, 1.0],
    [1.0, 1.0, 1.0, 1.0, 1.0, 1.0, 1.0, 1.0, 1.0, 1.0],
    [1.0, 1.0, 1.0, 1.0, 1.0, 1.0, 1.0, 1.0, 1.0, 1.0],
    [1.0, 1.0, 1.0, 1.0, 1.0, 1.0, 1.0, 1.0, 1.0, 1.0],
    [1.0, 1.0, 1.0, 1.0, 1.0, 1.0, 1.0, 1.0, 1.0, 1.0]]
  dl := at_ []
  K := at_ []
  D := at_ []
  Dm := at_ []
  Mm := at_ []
  fdh := at_ [0, 0, 0, 0, 0, 0, 0, 0, 0, 0, 0, 0, 0, 0, 0, 0, 0, 0, 0, 0, 0, 0, 0, 0, 0, 0, 0, 0, 0, 0, 0, 0, 0, 0, 0, 0]
  fw2l := at_ [0, 0, 0, 0, 0, 0]
  fee := at_ [0, 0, 0, 0, 0, 0]
  fg := at_ [0, 0, 0]
  fdyn := rows [
    [1, 1, 1, 1, 1, 1, 1, 1, 1, 1],
    [1, 1, 1, 1, 1, 1, 1, 1, 1, 1],
    [1, 1, 1, 1, 1, 1, 1, 1, 1, 1],
    [1, 1, 1, 1, 1, 1, 1, 1, 1, 1],
    [1, 1, 1, 1, 1, 1, 1, 1, 1, 1],
    [1, 1, 1, 1, 1, 1, 1, 1, 1, 1],
    [1, 1, 1, 1, 1, 1, 1, 1, 1, 1],
    [1, 1, 1, 1, 1, 1, 1, 1, 1, 1],
    [1, 1, 1, 1, 1, 1, 1, 1, 1, 1]]
  fdl := at_ []
  fK := at_ []
  fD := at_ []
  fDm := at_ []
  fMm := at_ []

/-- What `src/thunder/robots/testRobots/R9_kinSymb.yaml` says. -/
def R9kC : Conf where
  types := ["R", "R", "R", "R", "R", "R", "R", "R", "R"]
  elastic := false
  kO := 0
  dO := 0
  dmO := 0
  dlO := 0
  dh := at_ [0, 0, 1, 0, 0, 1.5707963267948966, 0, 0, 0, (-1.5707963267948966), 0, 0, 0, 1.5707963267948966, 2, 0, 0, (-1.5707963267948966), 0, 0, 0,
    1.5707963267948966, 2, 0, 0, (-1.5707963267948966), 0, 0, 0, 1.5707963267948966, 2, 0, 1, 0, 0, 0]
  w2l := at_ [0, 0, 0, 0, 0, 0]
  ee := at_ [1, 0, 0, 0, 0, (-1.5707963267948966)]
  g := at_ [0, 0, (-9.81)]
  dyn := rows [
    [1.0, 1.0, 1.0, 1.0, 1.0, 1.0, 1.0, 1.0, 1.0, 1.0],
    [1.0, 1.0, 1.0, 1.0, 1.0, 1.0, 1.0, 1.0, 1.0, 1.0],
    [1.0, 1.0, 1.0, 1.0, 1.0, 1.0, 1.0, 1.0, 1.0, 1.0],
    [1.0, 1.0, 1.0, 1.0, 1.0, 1.0, 1.0, 1.0, 1.0, 1.0],
    [1.0, 1.0, 1.0, 1.0, 1.0, 1.0, 1.0, 1.0, 1.0, 1.0],
    [1.0, 1.0, 1.0, 1.0, 1.0, 1.0, 1.0, 1.0, 1.0, 1.0],
    [1.0, 1.0, 1.0, 1.0, 1.0, 1.0, 1.0, 1.0, 1.0, 1.0],
    [1.0, 1.0, 1.0, 1.0, 1.0, 1.0, 1.0, 1.0, 1.0, 1.0],
    [1.0, 1.0, 1.0, 1.0, 1.0, 1.0, 1.0, 1.0, 1.0, 1.0]]
  dl := at_ []
  K := at_ []
  D := at_ []
  Dm := at_ []
  Mm := at_ []
  fdh := at_ [1, 1, 1, 1, 1, 1, 1, 1, 1, 1, 1, 1, 1, 1, 1, 1, 1, 1, 1, 1, 1, 1, 1, 1, 1, 1, 1, 1, 1, 1, 1, 1, 1, 1, 1, 1]
  fw2l := at_ [0, 0, 0, 0, 0, 0]
  fee := at_ [0, 0, 0, 0, 0, 0]
  fg := at_ [0, 0, 0]
  fdyn := rows [
    [1, 1, 1, 1, 1, 1, 1, 1, 1, 1],
    [1, 1, 1, 1, 1, 1, 1, 1, 1, 1],
    [1, 1, 1, 1, 1, 1, 1, 1, 1, 1],
    [1, 1, 1, 1, 1, 1, 1, 1, 1, 1],
    [1, 1, 1, 1, 1, 1, 1, 1, 1, 1],
    [1, 1, 1, 1, 1, 1, 1, 1, 1, 1],
    [1, 1, 1, 1, 1, 1, 1, 1, 1, 1],
    [1, 1, 1, 1, 1, 1, 1, 1, 1, 1],
    [1, 1, 1, 1, 1, 1, 1, 1, 1, 1]]
  fdl := at_ []
  fK := at_ []
  fD := at_ []
  fDm := at_ []
  fMm := at_ []

/-- What `src/thunder/robots/testRobots/R9_noDynSymb.yaml` says. -/
def R9nC : Conf where
  types := ["R", "R", "R", "R", "R", "R", "R", "R", "R"]
  elastic := false
  kO := 0
  dO := 0
  dmO := 0
  dlO := 0
  dh := at_ [0, 0, 1, 0, 0, 1.5707963267948966, 0, 0, 0, (-1.5707963267948966), 0, 0, 0, 1.5707963267948966, 2, 0, 0, (-1.5707963267948966), 0, 0, 0,
    1.5707963267948966, 2, 0, 0, (-1.5707963267948966), 0, 0, 0, 1.5707963267948966, 2, 0, 1, 0, 0, 0]
  w2l := at_ [0, 0, 0, 0, 0, 0]
  ee := at_ [1, 0, 0, 0, 0, (-1.5707963267948966)]
  g := at_ [0, 0, (-9.81)]
  dyn := rows [
    [1.0, 1.0, 1.0, 1.0, 1.0, 1.0, 1.0, 1.0, 1.0, 1.0],
    [1.0, 1.0, 1.0, 1.0, 1.0, 1.0, 1.0, 1.0, 1.0, 1.0],
    [1.0, 1.0, 1.0, 1.0, 1.0, 1.0, 1.0, 1.0, 1.0, 1.0],
    [1.0, 1.0, 1.0, 1.0, 1.0, 1.0, 1.0, 1.0, 1.0, 1.0],
    [1.0, 1.0, 1.0, 1.0, 1.0, 1.0, 1.0, 1.0, 1.0, 1.0],
    [1.0, 1.0, 1.0, 1.0, 1.0, 1.0, 1.0, 1.0, 1.0, 1.0],
    [1.0, 1.0, 1.0, 1.0, 1.0, 1.0, 1.0, 1.0, 1.0, 1.0],
    [1.0, 1.0, 1.0, 1.0, 1.0, 1.0, 1.0, 1.0, 1.0, 1.0],
    [1.0, 1.0, 1.0, 1.0, 1.0, 1.0, 1.0, 1.0, 1.0, 1.0]]
  dl := at_ []
  K := at_ []
  D := at_ []
  Dm := at_ []
  Mm := at_ []
  fdh := at_ [0, 0, 0, 0, 0, 0, 0, 0, 0, 0, 0, 0, 0, 0, 0, 0, 0, 0, 0, 0, 0, 0, 0, 0, 0, 0, 0, 0, 0, 0, 0, 0, 0, 0, 0, 0]
  fw2l := at_ [0, 0, 0, 0, 0, 0]
  fee := at_ [0, 0, 0, 0, 0, 0]
  fg := at_ [0, 0, 0]
  fdyn := rows [
    [0, 0, 0, 0, 0, 0, 0, 0, 0, 0],
    [0, 0, 0, 0, 0, 0, 0, 0, 0, 0],
    [0, 0, 0, 0, 0, 0, 0, 0, 0, 0],
    [0, 0, 0, 0, 0, 0, 0, 0, 0, 0],
    [0, 0, 0, 0, 0, 0, 0, 0, 0, 0],
    [0, 0, 0, 0, 0, 0, 0, 0, 0, 0],
    [0, 0, 0, 0, 0, 0, 0, 0, 0, 0],
    [0, 0, 0, 0, 0, 0, 0, 0, 0, 0],
    [0, 0, 0, 0, 0, 0, 0, 0, 0, 0]]
  fdl := at_ []
  fK := at_ []
  fD := at_ []
  fDm := at_ []
  fMm := at_ []

/-- What `robots/RRR/RRR.yaml` says. -/
def oldRRRC : Conf where
  types := ["R", "R", "R"]
  elastic := false
  kO := 0
  dO := 0
  dmO := 0
  dlO := 0
  dh := at_ [0, 0, 1, 0, 0, 1.5707963267948966, 0, 0, 1, 0, 0, 0]
  w2l := at_ [0, 0, 0, 0, 0, 0]
  ee := at_ [1, 0, 0, 0, 0, (-1.5707963267948966)]
  g := at_ [0, 0, (-9.81)]
  dyn := rows [
    [1.0, 1.0, 1.0, 1.0, 1.0, 1.0, 1.0, 1.0, 1.0, 1.0],
    [1.0, 1.0, 1.0, 1.0, 1.0, 1.0, 1.0, 1.0, 1.0, 1.0],
    [1.0, 1.0, 1.0, 1.0, 1.0, 1.0, 1.0, 1.0, 1.0, 1.0]]
  dl := at_ []
  K := at_ []
  D := at_ []
  Dm := at_ []
  Mm := at_ []
  fdh := at_ [0, 0, 0, 0, 0, 0, 0, 0, 0, 0, 0, 0]
  fw2l := at_ [0, 0, 0, 0, 0, 0]
  fee := at_ [1, 1, 1, 0, 0, 0]
  fg := at_ [0, 0, 0]
  fdyn := rows [
    [1, 1, 1, 1, 1, 1, 1, 1, 1, 1],
    [1, 1, 1, 1, 1, 1, 1, 1, 1, 1],
    [1, 1, 1, 1, 1, 1, 1, 1, 1, 1]]
  fdl := at_ []
  fK := at_ []
  fD := at_ []
  fDm := at_ []
  fMm := at_ []

/-- What `robots/RRR_sea/seaRRR.yaml` says. -/
def oldSeaC : Conf where
  types := ["R_SEA", "R", "R"]
  elastic := true
  kO := 1
  dO := 0
  dmO := 1
  dlO := 2
  dh := at_ [0, 0, 1, 0, 0, 1.5707963267948966, 0, 0, 1, 0, 0, 0]
  w2l := at_ [0, 0, 0, 0, 0, 0]
  ee := at_ [1, 0, 0, 0, 0, (-1.5707963267948966)]
  g := at_ [0, 0, (-9.81)]
  dyn := rows [
    [1.0, 1.0, 1.0, 1.0, 1.0, 1.0, 1.0, 1.0, 1.0, 1.0],
    [1.0, 1.0, 1.0, 1.0, 1.0, 1.0, 1.0, 1.0, 1.0, 1.0],
    [1.0, 1.0, 1.0, 1.0, 1.0, 1.0, 1.0, 1.0, 1.0, 1.0]]
  dl := at_ [0.1, 0.01, 0.1, 0.01, 0.1, 0.01]
  K := at_ [1.0]
  D := at_ []
  Dm := at_ [0.1]
  Mm := at_ [1.0]
  fdh := at_ [0, 0, 0, 0, 0, 0, 0, 0, 0, 0, 0, 0]
  fw2l := at_ [0, 0, 0, 0, 0, 0]
  fee := at_ [0, 0, 0, 0, 0, 0]
  fg := at_ [0, 0, 0]
  fdyn := rows [
    [0, 0, 0, 0, 0, 0, 0, 0, 0, 0],
    [0, 0, 0, 0, 0, 0, 0, 0, 0, 0],
    [0, 0, 0, 0, 0, 0, 0, 0, 0, 0]]
  fdl := at_ [0, 0, 0, 0, 0, 0]
  fK := at_ [0]
  fD := at_ []
  fDm := at_ [0]
  fMm := at_ [0]

/-- What `robots/franka/franka.yaml` says. -/
def oldFrankaC : Conf where
  types := ["R", "R", "R", "R", "R", "R", "R"]
  elastic := false
  kO := 0
  dO := 0
  dmO := 0
  dlO := 0
  dh := at_ [0, 0, 0.3330, 0, 0, (-1.5707963267948966), 0, 0, 0, 1.5707963267948966, 0.3160, 0, 0.0825, 1.5707963267948966, 0, 0, (-0.0825),
    (-1.5707963267948966), 0.384, 0, 0, 1.5707963267948966, 0, 0, 0.088, 1.5707963267948966, 0.107, 0]
  w2l := at_ [0, 0, 0, 0, 0, 0]
  ee := at_ [0, 0, 0, 0, 0, 0]
  g := at_ [0, 0, (-9.81)]
  dyn := rows [
    [4.970684, 3.875e-3, 2.081e-3, (-4.762e-2), 7.0337e-1, (-1.3900e-4), 6.7720e-3, 7.0661e-1, 1.9169e-2, 9.1170e-3],
    [0.646926, (-3.141e-3), (-2.872e-2), 3.495e-3, 7.9620e-3, (-3.9250e-3), 1.0254e-02, 2.8110e-02, 7.0400e-04, 2.5995e-02],
    [3.228604, 2.7518e-02, 3.9252e-02, (-6.6502e-02), 3.7242e-02, (-4.7610e-03), (-1.1396e-02), 3.6155e-02, (-1.2805e-02), 1.0830e-02],
    [3.587895, (-5.317e-02), 1.04419e-01, 2.7454e-02, 2.5853e-02, 7.7960e-03, (-1.3320e-03), 1.9552e-02, 8.6410e-03, 2.8323e-02],
    [1.225946, (-1.1953e-02), 4.1065e-02, (-3.8437e-02), 3.5549e-02, (-2.1170e-03), (-4.0370e-03), 2.9474e-02, 2.2900e-04, 8.6270e-03],
    [1.666555, 6.0149e-02, (-1.4117e-02), (-1.0517e-02), 1.9640e-03, 1.0900e-04, (-1.1580e-03), 4.3540e-03, 3.4100e-04, 5.4330e-03],
    [0.735522, 1.0517e-02, (-4.252e-03), (-4.5403e-02), 1.2516e-02, (-4.28e-04), (-1.196e-03), 1.0027e-02, (-7.41e-04), 4.815e-03]]
  dl := at_ []
  K := at_ []
  D := at_ []
  Dm := at_ []
  Mm := at_ []
  fdh := at_ [0, 0, 0, 0, 0, 0, 0, 0, 0, 0, 0, 0, 0, 0, 0, 0, 0, 0, 0, 0, 0, 0, 0, 0, 0, 0, 0, 0]
  fw2l := at_ [0, 0, 0, 0, 0, 0]
  fee := at_ [0, 0, 0, 0, 0, 0]
  fg := at_ [0, 0, 0]
  fdyn := rows [
    [0, 0, 0, 0, 0, 0, 0, 0, 0, 0],
    [0, 0, 0, 0, 0, 0, 0, 0, 0, 0],
    [0, 0, 0, 0, 0, 0, 0, 0, 0, 0],
    [0, 0, 0, 0, 0, 0, 0, 0, 0, 0],
    [0, 0, 0, 0, 0, 0, 0, 0, 0, 0],
    [0, 0, 0, 0, 0, 0, 0, 0, 0, 0],
    [0, 0, 0, 0, 0, 0, 0, 0, 0, 0]]
  fdl := at_ []
  fK := at_ []
  fD := at_ []
  fDm := at_ []
  fMm := at_ []

end

end Thunder.Spec.Ship
