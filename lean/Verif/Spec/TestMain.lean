import Verif.Spec.System
import Verif.Model.TestMain

/-!
# What `thunder_test` should print
-/

namespace Thunder.Spec

open Matrix Robot

noncomputable section

/-- The program prints `m` under the heading `l`. -/
def shows (out : List (String × Mat)) (l : String) (m : Mat) : Prop := (l, m) ∈ out

/-- The state set by the program: all joint coordinates one, everything else zero. -/
def testState (c : Conf) : State c := ⟨fun _ => 1, 0, 0, 0, 0, 0, 0, 0, 0, 0⟩

/-- The headings, in order. -/
def headings (c : Conf) : List String :=
  ["par_DHtable", "par_DYN", "par_REG", "par_Dl", "par_K", "par_D", "par_Dm", "par_Mm", "Kin_ee", "Kin0", "Kin1", "Kin2", "Kin3", "Jac", "Jac1", "Jac2", "Jac3",
    "M", "C", "C_std", "G"] ++
  (if 0 < c.dlO then ["D_link", "reg_Dl"] else []) ++
  (if c.elastic then ["K", "D_coupling", "D_motor", "M_motor", "reg_K", "reg_Dm", "reg_D", "reg_Mm"] else []) ++ ["err_dyn_reg"]

/-- Headings under which the answer of a function is to be printed. -/
def answersOf (c : Conf) : List (String × String) :=
  [("Kin_ee", "T_0_ee"), ("Kin0", "T_0_0"), ("Kin1", "T_0_1"), ("Kin2", "T_0_2"), ("Kin3", "T_0_3"), ("Jac", "J_ee"), ("Jac1", "J_1"), ("Jac2", "J_2"),
    ("Jac3", "J_3"), ("M", "M"), ("C", "C"), ("C_std", "C_std"), ("G", "G")] ++
  (if 0 < c.dlO then [("D_link", "dl"), ("reg_Dl", "reg_dl")] else []) ++
  (if c.elastic then [("K", "k"), ("D_coupling", "d"), ("D_motor", "dm"), ("M_motor", "Mm"), ("reg_K", "reg_k"), ("reg_Dm", "reg_dm"), ("reg_D", "reg_d"),
    ("reg_Mm", "reg_Mm")] else [])

/-- A row of parameters as it is printed. -/
def printRow (v : List Num) : Mat := ⟨1, v.length, v⟩

end

end Thunder.Spec
