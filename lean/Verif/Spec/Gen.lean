import Verif.Spec.Generate
import Verif.Spec.Inertia
import Verif.Spec.Text
import Verif.Model.Gen

/-!
# Specification: what the command `thunder gen` leaves on the disk
-/

namespace Thunder.Spec

open Thunder.Robot Thunder.Gen

/-- The directory, as a path that ends with `/`. -/
def slash (p : List Char) : List Char := if p.getLast? = some '/' then p else p ++ ['/']

/-- The directory of the generated files. -/
def outDir (cwd name : List Char) : List Char := slash cwd ++ name ++ "_generatedFiles/".toList

/-- The name of a robot file: `stem.yaml`, with or without a directory. -/
def NamedFile (p stem : List Char) : Prop :=
  '/' ∉ stem ∧ (p = stem ++ ".yaml".toList ∨ ∃ dir, p = dir ++ '/' :: stem ++ ".yaml".toList)

/-- The command line asks for the robot `name`: the argument of `--name`, otherwise the name of the file. -/
structure Asks (a : Args) (name : List Char) : Prop where
  ok : a.ok = true
  config : a.hasConfig = true
  file : ∃ stem, NamedFile a.configFile stem ∧ name = a.name.getD stem
  short : a.configFile.length < 2 ^ 31

/-- The directory of the templates, as installed. -/
def templateDir : List Char := "/usr/local/share/thunder_dynamics/thunder_robot_template/".toList

/-- The templates are installed. -/
structure Installed (d : Disk) (python : Bool) : Prop where
  dir : d.dir templateDir = true
  header : d.file (templateDir ++ "thunder_robot.h".toList) = some Text.headerFile
  source : d.file (templateDir ++ "thunder_robot.cpp".toList) = some Text.sourceFile
  cmake : python = true → ∃ t, d.file (templateDir ++ "CMakeLists.txt".toList) = some t

/-- The two documents among the generated files. -/
def Document (name f : List Char) : Prop := f = name ++ "_conf.yaml".toList ∨ f = name ++ "_par_REG.yaml".toList

/-- The directory of the generated files exists or can be created, and files other than the two documents can be written into it. -/
structure Writable (env : Env) (d : Disk) (name : List Char) : Prop where
  cwd : d.dir (slash env.cwd) = true
  free : d.file (slash env.cwd ++ name ++ "_generatedFiles".toList) = none
  allowed : ∀ f, '/' ∉ f → ¬ Document name f → env.allowed (outDir env.cwd name ++ f) = true
  noDir : ∀ f, '/' ∉ f → ¬ Document name f → d.dir (outDir env.cwd name ++ f ++ ['/']) = false

/-- The file of the directory can be written. -/
def CanWrite (env : Env) (d : Disk) (name f : List Char) : Prop :=
  env.allowed (outDir env.cwd name ++ f) = true ∧ d.dir (outDir env.cwd name ++ f ++ ['/']) = false

/-- The linear parameters of link `i` of the mechanism in the file. -/
noncomputable def linearOf (c : Conf) (i : ℕ) : ℕ → ℝ := linPar (mass c.dyn i) (com c.dyn i) (inertia c.dyn i)

/-- A document that gives the linear parameters `P i` for `n` links, called link1, link2, … -/
def RegDoc (z : Yaml) (n : ℕ) (P : ℕ → ℕ → Num) : Prop :=
  ∃ l, Child z "dynamics" (.map l) ∧ l.length = n ∧
    ∀ i < n, ∃ nd inert, l[i]? = some (some ("link" ++ toString (i + 1)), nd) ∧ Child nd "inertial" inert ∧ Inertial inert "m_CoM_" (P i)

/-- The name of the C function generated for the function `f` of the robot `name`. -/
def cFun (name : List Char) (f : String) : List Char := name ++ "_".toList ++ f.toList ++ "_fun".toList

/-- The list names every function of the robot once, with the name of its C function. -/
def ListsFuns (r : Robot) (name : List Char) (l : List (List Char × CFun)) : Prop :=
  l.Nodup ∧ (∀ f F, r.funs.find f = some F → (cFun name f, F) ∈ l) ∧ ∀ p ∈ l, ∃ f, p.1 = cFun name f ∧ r.funs.find f = some p.2

/-- What is in the directory of the generated files, `out`, after the command for the robot `name`, started on the disk `d`. -/
structure Produced (env : Env) (a : Args) (y : Yaml) (c : Conf) (us : List UserFun) (name : List Char) (r : Robot) (out : List Char) (d d' : Disk) :
    Prop where
  /-- C code for the functions of the robot. -/
  code : ∃ l, ListsFuns r name l ∧ d'.file (out ++ name ++ "_gen.h".toList) = some (env.cHeader l) ∧
    d'.file (out ++ name ++ "_gen.cpp".toList) = some (env.cSource l)
  /-- The class, with one getter for each function. -/
  cls : ∃ hd s, d'.file (out ++ "thunder_".toList ++ name ++ ".h".toList) = some hd ∧
    d'.file (out ++ "thunder_".toList ++ name ++ ".cpp".toList) = some s ∧
    ∃ fs : List String, fs.Nodup ∧ (∀ f, f ∈ fs ↔ f ∈ library c ∨ f ∈ us.map UserFun.name) ∧ ClassOf r name hd s fs ∧
      (a.python = true → ∃ A B ls l, textLines s = A ++ (ls ++ (l ++ [';']) :: B) ∧ List.Forall₂ (Binds r name) fs (ls ++ [l]))
  /-- The configuration that was read, if the file can be written. -/
  conf : CanWrite env d name (name ++ "_conf.yaml".toList) → d'.file (out ++ name ++ "_conf.yaml".toList) = some (env.emit [] y)
  /-- The linear inertial parameters of the mechanism, if the file can be written. -/
  reg : CanWrite env d name (name ++ "_par_REG.yaml".toList) → ∃ comment z, d'.file (out ++ name ++ "_par_REG.yaml".toList) = some (env.emit comment z) ∧ RegDoc z c.n fun i k => some (linearOf c i k)
  /-- The stored functions. -/
  casadi : a.casadi = true → ∀ f F, r.funs.find f = some F → d'.file (out ++ f.toList ++ ".casadi".toList) = some (env.stored (cFun name f) F)
  /-- The build file for Python: the template with the name of the robot. -/
  cmake : a.python = true → ∃ t t', d.file (templateDir ++ "CMakeLists.txt".toList) = some t ∧ Replaced "robot".toList name t t' ∧
    d'.file (out ++ "CMakeLists.txt".toList) = some t'

/-- The files of the directory that are written. -/
def Written (a : Args) (name : List Char) (r : Robot) (f : List Char) : Prop :=
  f = name ++ "_gen.h".toList ∨ f = name ++ "_gen.cpp".toList ∨ f = "thunder_".toList ++ name ++ ".h".toList ∨
    f = "thunder_".toList ++ name ++ ".cpp".toList ∨ f = name ++ "_conf.yaml".toList ∨ f = name ++ "_par_REG.yaml".toList ∨
    (a.python = true ∧ f = "CMakeLists.txt".toList) ∨ (a.casadi = true ∧ ∃ g, r.funs.has g = true ∧ f = g.toList ++ ".casadi".toList)

/-- The directories into which `--copy` copies headers, sources and documents. -/
def copyRoots (cwd : List Char) : List (List Char) :=
  let pre := if cwd = "build".toList ∨ "/build".toList <:+ cwd then slash cwd ++ "../../../".toList else "/home/thunder_dev/thunder_dynamics/".toList
  [pre ++ "src/thunder_robot/".toList, pre ++ "src/thunder_robot_chrono/".toList]

/-- The destination of a generated file below such a directory. -/
inductive CopyDest (name : List Char) : List Char → List Char → Prop
  | header {f : List Char} : f = name ++ "_gen.h".toList ∨ f = "thunder_".toList ++ name ++ ".h".toList → CopyDest name f "library/".toList
  | source {f : List Char} : f = name ++ "_gen.cpp".toList ∨ f = "thunder_".toList ++ name ++ ".cpp".toList → CopyDest name f "src/".toList
  | doc {f : List Char} : f = name ++ "_conf.yaml".toList ∨ f = name ++ "_par_REG.yaml".toList → CopyDest name f "robots/".toList

/-- `p` is the place to which `--copy` copies the generated file `f`. -/
def CopiedTo (cwd name f p : List Char) : Prop := ∃ root ∈ copyRoots cwd, ∃ sub, CopyDest name f sub ∧ p = root ++ sub ++ f

end Thunder.Spec
