import Verif.Model.Act
import Verif.Model.Body
import Verif.Model.Wrapper

/-!
# `main` of the program genYAML (src/genYAML/main_YAML.cpp)

A program of its own that reads `yaml/inertial.yaml` (bodies in the frames of a URDF file) and writes files of inertial parameters in
Denavit-Hartenberg frames.  Line numbers refer to `src/genYAML/main_YAML.cpp`; `transformBodyInertial`, `createI` and `rpyRot` of
`src/genYAML/src/urdf2dh_inertial.cpp:5-29, 83-121` are the same as in `src/thunder/src/utils.cpp` and are the functions of `Model/Body.lean`
(the structure `LinkProp` has no member `Dl` here; it is left empty).  `use_gripper` and `copy_flag` are constants with value `false` (lines 39-40), and
the branches they guard are left out.  `M_PI_2` is `π/2`: as in `Model/Body.lean`, rounding is not modelled.  The files written are a list of names and
trees; that an output file can be opened is not checked by the code, the comment at the top and the output on the terminal are left out.
-/

namespace Thunder.Urdf

open Act

noncomputable section

/-- Local variable `links_prop` of `main` (line 73) and the files written. -/
structure St where
  links : List LinkProp
  files : List (String × Yaml)

/-- `stream >> v[0] >> v[1] >> v[2]` on a vector of three zeros (lines 139-140, 148-149).  `xs` are the numbers read before the first failure; a failed
extraction stores zero and the following ones do nothing. -/
def three (xs : List Num) (k : Fin 3) : Num := xs.getD k (some 0)

/-- One iteration of the loop over the entries, lines 119-156.  `scan` gives the numbers that can be extracted from a text one after the other.  An
entry without `xyz` or without `rpy` is skipped. -/
def readEntry (scan : String → List Num) (e : Option String × Yaml) : Act St Unit := do
  let name ← ofYaml e.1
  let mass ← ofYaml (e.2.getC "mass")
  let parI ← ofYaml (e.2.getC "inertia")
  let origin ← ofYaml (e.2.getC "origin")
  let m ← ofYaml mass.asD
  let I ← ofYaml (["xx", "xy", "xz", "yy", "yz", "zz"].mapM fun k => (parI.getM k).bind Yaml.asD)
  let xyz ← ofYaml (origin.getM "xyz")
  if xyz.isDef then
    let c ← ofYaml xyz.asS
    let rpy ← ofYaml (origin.getM "rpy")
    if rpy.isDef then
      let a ← ofYaml rpy.asS
      modify fun s => { s with links := s.links ++ [⟨name, m, fun k => I.getD k none, three (scan c), three (scan a), []⟩] }
    else pure ()
  else pure ()

/-- Lines 116-160; `file` is `none` when the file cannot be read. -/
def readFile (scan : String → List Num) (file : Option Yaml) : Act St Unit :=
  tryYaml (do
    let config ← ofYaml file
    forIdx (fun _ => readEntry scan) 0 config.items) (pure ())

/-- `transform[i].rpy`, lines 90-95, 110. -/
def angles : ℕ → Fin 3 → Num
  | 0 => ![some (Real.pi / 2), some 0, some 0]
  | 1 => ![some (-(Real.pi / 2)), some 0, some 0]
  | 2 => ![some (-(Real.pi / 2)), some 0, some 0]
  | 3 => ![some (Real.pi / 2), some 0, some 0]
  | 4 => ![some (-(Real.pi / 2)), some 0, some 0]
  | 5 => ![some (-(Real.pi / 2)), some 0, some 0]
  | _ => ![some 0, some 0, some 0]

/-- `transform[i].xyz`, lines 97-102, 111. -/
def shift : ℕ → Fin 3 → Num
  | 0 => ![some 0, some 0, some 0]
  | 1 => ![some 0, some 0, some 0]
  | 2 => ![some (-0.0825), some 0, some 0]
  | 3 => ![some 0.0825, some 0, some 0]
  | 4 => ![some 0, some 0, some 0]
  | 5 => ![some (-0.088), some 0, some 0]
  | _ => ![some 0, some 0, some (-0.107)]

/-- `LinkProp()` as made by `resize` (lines 86-87). -/
def fresh : LinkProp := ⟨"", some 0, fun _ => some 0, fun _ => some 0, fun _ => some 0, []⟩

/-- Lines 164-166: the entry with index `i` of the file goes to link `i`; entry 0 (the base) is left out.  `none` is an access outside `links_prop`. -/
def convert (links : List LinkProp) : Option (List LinkProp) :=
  (List.range 7).mapM fun i => (links[i + 1]?).map fun u => transformBody (shift i) (angles i) u fresh

/-- `perturbateLinkProp`, lines 281-298; `e` are the ten values drawn. -/
def perturb (u : LinkProp) (e : ℕ → ℝ) : LinkProp :=
  { u with
    mass := Num.mul u.mass (some (1 + e 0))
    xyz := fun k => Num.mul (u.xyz k) (some (1 + e (1 + k)))
    parI := fun k => Num.mul (u.parI k) (some (1 + e (4 + k))) }

/-- Lines 232-246. -/
def regBody (l : LinkProp) : LinkProp :=
  { l with
    xyz := fun k => Num.mul l.mass (l.xyz k)
    parI := parI6 (add3 (createI l.parI) (steinerWrap l.mass l.xyz)) }

/-- The ten values of a link in the order of `fillInertialYaml`, lines 317-326. -/
def tenOf (l : LinkProp) (k : ℕ) : Num :=
  [l.mass, l.xyz 0, l.xyz 1, l.xyz 2, l.parI 0, l.parI 1, l.parI 2, l.parI 3, l.parI 4, l.parI 5].getD k none

/-- The node of a link, lines 313-326. -/
def node (com : String) (l : LinkProp) : Yaml :=
  (List.range 10).foldl (fun y k => y.setKey ((Wrap.inertialKeys com).getD k "") (Yaml.ofD (tenOf l k))) Yaml.undef

/-- `fillInertialYaml`, lines 300-333; `com` is `keys_[1]`, the other keys used are the same in both cases (lines 70-71).  The maps of one entry each are
written below each other at the same indentation, which is one map. -/
def fill (com : String) (links : List LinkProp) : Yaml := .map (links.map fun l => (some l.name, node com l))

/-- The names of the files for the regressor, lines 42, 222-223, 252-255. -/
def regName : ℕ → String
  | 0 => "../generatedFiles/inertial_DH_REG.yaml"
  | 1 => "../generatedFiles/inertial_DH_REG_p2.yaml"
  | 2 => "../generatedFiles/inertial_DH_REG_p5.yaml"
  | 3 => "../generatedFiles/inertial_DH_REG_p10.yaml"
  | _ => "../generatedFiles/inertial_DH_REG_p20.yaml"

/-- The links written to file `w` for the regressor, lines 227-247; `draw w i` are the values drawn for link `i`. -/
def regLinks (draw : ℕ → ℕ → ℕ → ℝ) (dh : List LinkProp) (w : ℕ) : List LinkProp := dh.mapIdx fun i l => regBody (perturb l (draw w i))

/-- `main`, lines 64-279.  `draw` are the results of `dist(gen)`.  (For the first file the standard deviation is 0, which the C++ standard does not allow;
nothing is assumed here about the values drawn.) -/
def main (scan : String → List Num) (draw : ℕ → ℕ → ℕ → ℝ) (file : Option Yaml) : Act St ℤ := do
  readFile scan file
  let s ← read
  let dh ← ofIdx (convert s.links)
  modify fun s => { s with files := s.files ++ [("../generatedFiles/inertial_DH.yaml", fill "CoM_" dh)] }
  modify fun s => { s with files := s.files ++ [("../generatedFiles/inertial_DH_DYN.yaml", fill "CoM_" dh)] }
  modify fun s => { s with files := s.files ++ (List.range 5).map fun w => (regName w, fill "m_CoM_" (regLinks draw dh w)) }
  pure 0

/-- Before the start. -/
def start : St := ⟨[], []⟩

end

end Thunder.Urdf
