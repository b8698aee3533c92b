import Verif.Model.Act
import Verif.Model.Body
import Verif.Model.Wrapper

/-!
# `genInertial_files` (src/thunder/src/genYaml.cpp)

The function is compiled into the library; its call in `thunder_main.cpp:200` is commented out.  Line numbers refer to `src/genYaml.cpp`.  The files written
are a list of names and trees, in the order of writing (that an output file can be opened is not checked by the code; the comment in front of the tree is
left out).
-/

namespace Thunder.GenYaml

open Act

noncomputable section

/-- Local variables of `genInertial_files` (lines 36-42) and the files written. -/
structure St where
  dh : List LinkProp
  reg : List LinkProp
  files : List (String × Yaml)

/-- `LinkProp()` as made by `resize`: value-initialised, so that the mass is zero (library/utils.h:13-20). -/
def blank : LinkProp := ⟨"", some 0, fun _ => some 0, fun _ => some 0, fun _ => some 0, [some 0]⟩

/-- A `LinkProp` from its name, the ten inertial values in the order of reading, and the friction coefficients; `rpy` keeps its initial value
(lines 57-83). -/
def propOf (name : String) (p : List Num) (dl : List Num) : LinkProp :=
  ⟨name, p.getD 0 none, fun k => p.getD (4 + k) none, fun k => p.getD (1 + k) none, fun _ => some 0, dl⟩

/-- Lines 76-85: `Dl_order` is tested as a truth value; `resize` of a negative size is a `std::length_error`; the coefficients are read from the entry `Dl`
of the link (the node `friction` is looked up but not used). -/
def readDl (ord : ℤ) (nd : Yaml) : Act St (List Num) :=
  if ord = 0 then pure [some 0]
  else if ord < 0 then ofExc none
  else do
    let _ ← ofYaml (nd.getC "friction")
    let v ← ofYaml (nd.getC "Dl")
    ofYaml (v.asVec Yaml.asD)

/-- `v[i] = a` on a `std::vector`. -/
def putAt (i : ℕ) (a : LinkProp) : Act St Unit := do
  let s ← read
  if i < s.dh.length then modify fun s => { s with dh := s.dh.set i a } else ofIdx none

/-- One iteration of the loop over the links, lines 56-96. -/
def readLink (ord : ℤ) (i : ℕ) (e : Option String × Yaml) : Act St Unit := do
  let inertial ← ofYaml (e.2.getC "inertial")
  let name ← ofYaml e.1
  let p ← ofYaml (Wrap.readInertial "CoM_" inertial)
  let dl ← readDl ord e.2
  putAt i (propOf name p dl)

/-- One iteration of lines 100-119. -/
def regProp (l : LinkProp) : LinkProp :=
  let I0 := add3 (createI l.parI) (steinerGen l.mass l.xyz)
  { blank with name := l.name, mass := l.mass, xyz := fun k => Num.mul l.mass (l.xyz k), parI := parI6 I0, Dl := l.Dl }

/-- The ten values of a link in the order of `fillInertialYaml`. -/
def tenOf (l : LinkProp) (k : ℕ) : Num :=
  [l.mass, l.xyz 0, l.xyz 1, l.xyz 2, l.parI 0, l.parI 1, l.parI 2, l.parI 3, l.parI 4, l.parI 5].getD k none

/-- `fillInertialYaml`, lines 150-205; `com` is `keys_[1]`, the other keys are the same in both calls (lines 32-33).  The body of the loop is the one of the
function of the same name in the generated class. -/
def fill (com : String) (links : List LinkProp) : Yaml :=
  Yaml.undef.setKey "dynamics" (links.foldl (fun y l => y.setKey l.name (Wrap.linkNode com (tenOf l) l.Dl)) Yaml.null)

/-- Lines 47-96 for a file that has been read. -/
def readAll (config : Yaml) : Act St Unit := do
  let dyn ← ofYaml (config.getM "dynamics")
  let o ← ofYaml (config.getM "Dl_order")
  let ord ← if o.isDef then ofYaml o.asI else pure 0
  forIdx (readLink ord) 0 dyn.items

/-- Lines 98-140. -/
def writeAll (outDYN outREG : String) : Act St ℤ := do
  modify fun s => { s with reg := s.dh.map regProp }
  modify fun s => { s with files := s.files ++ [(outREG, fill "m_CoM_" s.reg)] }
  modify fun s => { s with files := s.files ++ [(outDYN, fill "CoM_" s.dh)] }
  pure 1

/-- `genInertial_files`, lines 26-148; `file` is `none` when the configuration cannot be read.  `robot_name` is not used.  `resize` of a negative size is a
`std::length_error`. -/
def genInertial (numJoints : ℤ) (file : Option Yaml) (outDYN outREG : String) : Act St ℤ := do
  if numJoints < 0 then ofExc none else
  modify fun s => { s with dh := List.replicate numJoints.toNat blank, reg := List.replicate numJoints.toNat blank }
  tryYaml (do
    let config ← ofYaml file
    readAll config
    writeAll outDYN outREG) (pure 0)

/-- Before the call. -/
def start : St := ⟨[], [], []⟩

end

end Thunder.GenYaml
