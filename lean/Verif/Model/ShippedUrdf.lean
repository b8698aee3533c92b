import Verif.Model.Shipped

/-!
# The file read by the program genYAML
-/

namespace Thunder.Ship

noncomputable section

/-- `src/genYAML/yaml/inertial.yaml` (the alias `*finger` resolved, comments dropped). -/
def inertial : Yaml := m [
  ("link0", m [("origin", m [("xyz", w "-0.041018 -0.00014 0.049974"), ("rpy", w "0 0 0")]),
    ("mass", r "0.629769" 0.629769),
    ("inertia", m [("xx", r "0.00315" 0.00315), ("yy", r "0.00388" 0.00388), ("zz", r "0.004285" 0.004285), ("xy", r "8.2904E-07" 0.00000082904),
      ("xz", r "0.00015" 0.00015), ("yz", r "8.2299E-06" 0.0000082299)])]),
  ("link1", m [("origin", m [("xyz", w "0.003875 0.002081 -0.04762"), ("rpy", w "0 0 0")]),
    ("mass", r "4.970684" 4.970684),
    ("inertia", m [("xx", r "0.70337" 0.70337), ("yy", r "0.70661" 0.70661), ("zz", r "0.0091170" 0.009117), ("xy", r "-0.00013900" (-0.000139)),
      ("xz", r "0.0067720" 0.006772), ("yz", r "0.019169" 0.019169)])]),
  ("link2", m [("origin", m [("xyz", w "-0.003141 -0.02872  0.003495"), ("rpy", w "0 0 0")]),
    ("mass", r "0.646926" 0.646926),
    ("inertia", m [("xx", r "0.0079620" 0.007962), ("yy", r "2.8110e-02" 0.02811), ("zz", r "2.5995e-02" 0.025995), ("xy",
      r "-3.9250e-3" (-0.003925)), ("xz", r "1.0254e-02" 0.010254), ("yz", r "7.0400e-04" 0.000704)])]),
  ("link3", m [("origin", m [("xyz", w "2.7518e-02 3.9252e-02 -6.6502e-02"), ("rpy", w "0 0 0")]),
    ("mass", r "3.228604" 3.228604),
    ("inertia", m [("xx", r "3.7242e-02" 0.037242), ("yy", r "3.6155e-02" 0.036155), ("zz", r "1.0830e-02" 0.01083), ("xy",
      r "-4.7610e-03" (-0.004761)), ("xz", r "-1.1396e-02" (-0.011396)), ("yz", r "-1.2805e-02" (-0.012805))])]),
  ("link4", m [("origin", m [("xyz", w "-5.317e-02 1.04419e-01 2.7454e-02"), ("rpy", w "0 0 0")]),
    ("mass", r "3.587895" 3.587895),
    ("inertia", m [("xx", r "2.5853e-02" 0.025853), ("yy", r "1.9552e-02" 0.019552), ("zz", r "2.8323e-02" 0.028323), ("xy",
      r "7.7960e-03" 0.007796), ("xz", r "-1.3320e-03" (-0.001332)), ("yz", r "8.6410e-03" 0.008641)])]),
  ("link5", m [("origin", m [("xyz", w "-1.1953e-02 4.1065e-02 -3.8437e-02"), ("rpy", w "0 0 0")]),
    ("mass", r "1.225946" 1.225946),
    ("inertia", m [("xx", r "3.5549e-02" 0.035549), ("yy", r "2.9474e-02" 0.029474), ("zz", r "8.6270e-03" 0.008627), ("xy",
      r "-2.1170e-03" (-0.002117)), ("xz", r "-4.0370e-03" (-0.004037)), ("yz", r "2.2900e-04" 0.000229)])]),
  ("link6", m [("origin", m [("xyz", w "6.0149e-02 -1.4117e-02 -1.0517e-02"), ("rpy", w "0 0 0")]),
    ("mass", r "1.666555" 1.666555),
    ("inertia", m [("xx", r "1.9640e-03" 0.001964), ("yy", r "4.3540e-03" 0.004354), ("zz", r "5.4330e-03" 0.005433), ("xy",
      r "1.0900e-04" 0.000109), ("xz", r "-1.1580e-03" (-0.001158)), ("yz", r "3.4100e-04" 0.000341)])]),
  ("link7", m [("origin", m [("xyz", w "1.0517e-02 -4.252e-03 6.1597e-02"), ("rpy", w "0 0 0")]),
    ("mass", r "7.35522e-01" 0.735522),
    ("inertia", m [("xx", r "1.2516e-02" 0.012516), ("yy", r "1.0027e-02" 0.010027), ("zz", r "4.8150e-03" 0.004815), ("xy",
      r "-4.2800e-04" (-0.000428)), ("xz", r "-1.1960e-03" (-0.001196)), ("yz", r "-7.4100e-04" (-0.000741))])]),
  ("hand", m [("origin", m [("xyz", w "-0.01 0 0.03"), ("rpy", w "0 0 0")]),
    ("mass", r "0.76" 0.76),
    ("inertia", m [("xx", r "0.001" 0.001), ("yy", r "0.0025" 0.0025), ("zz", r "0.0017" 0.0017), ("xy", r "0" 0), ("xz", r "0" 0), ("yz",
      r "0" 0)])]),
  ("leftfinger", m [("origin", m [("xyz", w "0 0 0"), ("rpy", w "0 0 0")]),
    ("mass", r "0.015" 0.015),
    ("inertia", m [("xx", r "2.3749999999999997e-06" 0.0000023749999999999997), ("yy", r "2.3749999999999997e-06" 0.0000023749999999999997), ("zz",
      r "7.5e-07" 0.00000075), ("xy", r "0" 0), ("xz", r "0" 0), ("yz", r "0" 0)])]),
  ("rightfinger", m [("origin", m [("xyz", w "0 0 0"), ("rpy", w "0 0 0")]),
    ("mass", r "0.015" 0.015),
    ("inertia", m [("xx", r "2.3749999999999997e-06" 0.0000023749999999999997), ("yy", r "2.3749999999999997e-06" 0.0000023749999999999997), ("zz",
      r "7.5e-07" 0.00000075), ("xy", r "0" 0), ("xz", r "0" 0), ("yz", r "0" 0)])])]

end

end Thunder.Ship
