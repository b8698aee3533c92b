import Verif.Spec.Shipped
import Verif.Spec.Urdf

/-!
# The bodies of the file `src/genYAML/yaml/inertial.yaml`
-/

namespace Thunder.Spec.Ship

noncomputable section

/-- The first eight bodies: name, mass, centre of mass, tensor (`xx, xy, xz, yy, yz, zz`). -/
def bodies : List (String × ℝ × (Fin 3 → ℝ) × (Fin 6 → ℝ)) := [
    ("link0", 0.629769, ![(-0.041018), (-0.00014), 0.049974], ![0.00315, 0.00000082904, 0.00015, 0.00388, 0.0000082299, 0.004285]),
    ("link1", 4.970684, ![0.003875, 0.002081, (-0.04762)], ![0.70337, (-0.000139), 0.006772, 0.70661, 0.019169, 0.009117]),
    ("link2", 0.646926, ![(-0.003141), (-0.02872), 0.003495], ![0.007962, (-0.003925), 0.010254, 0.02811, 0.000704, 0.025995]),
    ("link3", 3.228604, ![0.027518, 0.039252, (-0.066502)], ![0.037242, (-0.004761), (-0.011396), 0.036155, (-0.012805), 0.01083]),
    ("link4", 3.587895, ![(-0.05317), 0.104419, 0.027454], ![0.025853, 0.007796, (-0.001332), 0.019552, 0.008641, 0.028323]),
    ("link5", 1.225946, ![(-0.011953), 0.041065, (-0.038437)], ![0.035549, (-0.002117), (-0.004037), 0.029474, 0.000229, 0.008627]),
    ("link6", 1.666555, ![0.060149, (-0.014117), (-0.010517)], ![0.001964, 0.000109, (-0.001158), 0.004354, 0.000341, 0.005433]),
    ("link7", 0.735522, ![0.010517, (-0.004252), 0.061597], ![0.012516, (-0.000428), (-0.001196), 0.010027, (-0.000741), 0.004815])]

/-- The same bodies, without the first, in the Denavit-Hartenberg frames: mass, centre of mass, tensor. -/
def dhBodies : ℕ → ℝ := rows [
    [4.970684, 0.003875, 0.04762, 0.002081, 0.70337, (-0.006772), (-0.000139), 0.009117, (-0.019169), 0.70661],
    [0.646926, (-0.003141), 0.003495, 0.02872, 0.007962, 0.010254, 0.003925, 0.025995, (-0.000704), 0.02811],
    [3.228604, (-0.054982), (-0.066502), (-0.039252), 0.037242, (-0.011396), 0.004761, 0.01083, 0.012805, 0.036155],
    [3.587895, 0.02933, (-0.027454), 0.104419, 0.025853, 0.001332, 0.007796, 0.028323, (-0.008641), 0.019552],
    [1.225946, (-0.011953), (-0.038437), (-0.041065), 0.035549, (-0.004037), 0.002117, 0.008627, (-0.000229), 0.029474],
    [1.666555, (-0.027851), (-0.010517), 0.014117, 0.001964, (-0.001158), (-0.000109), 0.005433, (-0.000341), 0.004354],
    [0.735522, 0.010517, (-0.004252), (-0.045403), 0.012516, (-0.000428), (-0.001196), 0.010027, (-0.000741), 0.004815]]

/-- The texts of the file are read as the decimal numbers they contain. -/
def ReadsTexts (scan : String → List Num) : Prop :=
  scan "0 0 0" = [some 0, some 0, some 0] ∧
  scan "-0.041018 -0.00014 0.049974" = [some (-0.041018), some (-0.00014), some 0.049974] ∧
  scan "0.003875 0.002081 -0.04762" = [some 0.003875, some 0.002081, some (-0.04762)] ∧
  scan "-0.003141 -0.02872  0.003495" = [some (-0.003141), some (-0.02872), some 0.003495] ∧
  scan "2.7518e-02 3.9252e-02 -6.6502e-02" = [some 0.027518, some 0.039252, some (-0.066502)] ∧
  scan "-5.317e-02 1.04419e-01 2.7454e-02" = [some (-0.05317), some 0.104419, some 0.027454] ∧
  scan "-1.1953e-02 4.1065e-02 -3.8437e-02" = [some (-0.011953), some 0.041065, some (-0.038437)] ∧
  scan "6.0149e-02 -1.4117e-02 -1.0517e-02" = [some 0.060149, some (-0.014117), some (-0.010517)] ∧
  scan "1.0517e-02 -4.252e-03 6.1597e-02" = [some 0.010517, some (-0.004252), some 0.061597]

end

end Thunder.Spec.Ship
