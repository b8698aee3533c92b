import Verif.Model.Cli
import Verif.Model.Instantiate
import Verif.Model.User

/-!
# The command `thunder gen` on a file system

`main` and `copy_to`, src/thunder/thunder_main.cpp:50-282, with the functions they call: `generate_library` (src/robot.cpp:1031-1057), `save_conf` and
`save_par_REG` (src/robot.cpp:811-883), `update_cmake` (src/utils.cpp:258-280).  Line numbers without a file refer to src/thunder/thunder_main.cpp.

Simplifications: a path is a text, two paths are the same file when the texts are equal (no links, no `..`); the rights to write do not change while
the program runs; console output and the measured time are left out; `config_yaml` is the tree read from the file.
-/

namespace Thunder.Gen

open Text

/-- What lies outside the program and does not change. -/
structure Env where
  /-- `std::filesystem::current_path()`, line 133 (that it can throw is not modelled). -/
  cwd : List Char
  /-- Whether the variable HOME is set, line 157. -/
  home : Bool
  /-- Whether the operating system allows to create or to overwrite this file or directory. -/
  allowed : List Char → Bool
  /-- `YAML::LoadFile` on the contents of a file; `none` is an exception. -/
  parse : List Char → Option Yaml
  /-- `YAML::Emitter`: the text of a document after a comment. -/
  emit : List Char → Yaml → List Char
  /-- The header and the source that the code generator of CasADi writes for functions with the given names. -/
  cHeader : List (List Char × CFun) → List Char
  cSource : List (List Char × CFun) → List Char
  /-- The contents of a file written by `casadi::Function::save`. -/
  stored : List Char → CFun → List Char
  /-- Whether CasADi throws when it cannot write a file (versions differ). -/
  checked : Bool

/-- Files and directories; the path of a directory ends with `/`. -/
structure Disk where
  file : List Char → Option (List Char)
  dir : List Char → Bool

/-- The command line, lines 58-94. -/
structure Args where
  /-- `parse_args` accepts the command line. -/
  ok : Bool
  /-- The sub-command `gen` with its argument is present; otherwise `get` throws. -/
  hasConfig : Bool
  configFile : List Char
  /-- The argument of `--name`. -/
  name : Option (List Char)
  python : Bool
  casadi : Bool
  copy : Bool

/-- A program acting on the disk: the outcomes that are possible from a state. -/
def Prog (α : Type) := Disk → Res Disk α → Prop

namespace Prog

variable {α β : Type}

/-- Return of a value. -/
def ret (a : α) : Prog α := fun d o => o = .ok a d
/-- One statement after the other. -/
def andThen (x : Prog α) (f : α → Prog β) : Prog β := fun d o =>
  ∃ r, x d r ∧ match r with
    | .ok a d' => f a d' o
    | .yaml d' => o = .yaml d'
    | .exc d' => o = .exc d'
    | .ub => o = .ub

/-- Sequences of statements in `do` notation. -/
instance : Monad Prog where
  pure := ret
  bind := andThen

/-- Code with one outcome. -/
def act (x : Act Disk α) : Prog α := fun d o => o = x d

end Prog

/-! ## Files -/

/-- The directory of a path: everything up to the last `/`. -/
def dirOf (p : List Char) : List Char := (p.reverse.dropWhile (· ≠ '/')).reverse

/-- A file can be created or overwritten. -/
def Disk.writable (env : Env) (d : Disk) (p : List Char) : Bool := env.allowed p && d.dir (dirOf p) && !d.dir (p ++ ['/'])

/-- New contents of a file. -/
def Disk.set (d : Disk) (p t : List Char) : Disk := { d with file := Function.update d.file p (some t) }

/-- `std::ofstream f(p); f << t; f.close();`: nothing happens when the file cannot be opened. -/
def Disk.stream (env : Env) (p t : List Char) (d : Disk) : Disk := if d.writable env p then d.set p t else d

/-- A file written by CasADi. -/
def casadiWrite (env : Env) (p t : List Char) : Act Disk Unit := fun d =>
  if d.writable env p then .ok () (d.set p t) else if env.checked then .exc d else .ok () d

/-- `std::filesystem::copy_file(p, p', overwrite_existing)`: throws when the source is missing, the destination cannot be written, or both are the
same. -/
def copyFile (env : Env) (p p' : List Char) : Act Disk Unit := fun d =>
  match d.file p with
  | none => .exc d
  | some t => if d.writable env p' && decide (p ≠ p') then .ok () (d.set p' t) else .exc d

/-- `std::filesystem::create_directory(p)`, `p` ending with `/`: throws when there is a file of this name or the directory cannot be created. -/
def createDirectory (env : Env) (p : List Char) : Act Disk Unit := fun d =>
  if d.dir p then .ok () d
  else if (d.file p.dropLast).isSome then .exc d
  else if env.allowed p && d.dir (dirOf p.dropLast) then .ok () { d with dir := Function.update d.dir p true }
  else .exc d

/-- `path / s` for a text `s`. -/
def join (p s : List Char) : List Char := if s.head? = some '/' then s else if p.getLast? = some '/' then p ++ s else p ++ '/' :: s

/-! ## The parts of `main` -/

/-- The name of the code generator, split at the last dot into the base name and the suffix of the source
(`casadi::CodeGenerator`, called in src/robot.cpp:1038 with the option `cpp`). -/
def splitName (s : List Char) : List Char × List Char :=
  match findLastOf s ['.'] with
  | none => (s, ch ".cpp")
  | some i => (s.take i, s.drop i)

/-- The functions of the robot with the names given in `add_function`, src/robot.cpp:1023. -/
def cFunctions (r : Robot) : List (List Char × CFun) := r.funs.map fun p => (ch r.name ++ ch "_" ++ ch p.1 ++ ch "_fun", p.2)

/-- A sequence of actions. -/
def each {α : Type} (f : α → Act Disk Unit) : List α → Act Disk Unit
  | [] => pure ()
  | a :: l => do
    f a
    each f l

/-- `generate_library(savePath, name_file, SAVE_CASADI)`, src/robot.cpp:1031-1057.  The doubled `/` in the names of the saved functions
(src/robot.cpp:1051) is left out. -/
def generateLibrary (env : Env) (r : Robot) (path name : List Char) (save : Bool) : Act Disk Unit := do
  casadiWrite env (path ++ (splitName name).1 ++ (splitName name).2) (env.cSource (cFunctions r))
  casadiWrite env (path ++ (splitName name).1 ++ ch ".h") (env.cHeader (cFunctions r))
  if save then
    each (fun p => casadiWrite env (path ++ ch p.1 ++ ch ".casadi") (env.stored (ch r.name ++ ch "_" ++ ch p.1 ++ ch "_fun") p.2)) r.funs
  else pure ()

/-- The directory of the templates, line 159. -/
def templatePath : List Char := ch "/usr/local/share/thunder_dynamics/thunder_robot_template/"
/-- Paths of the templates, lines 151-167: empty when the directory is missing. -/
def templateOf (d : Disk) (f : List Char) : List Char := if d.dir templatePath then templatePath ++ f else []

/-- Lines 169-175. -/
def copyTemplates (env : Env) (path name : List Char) : Act Disk Unit := do
  let d ← Act.read
  copyFile env (templateOf d (ch "thunder_robot.h")) (path ++ ch "thunder_" ++ name ++ ch ".h")
  copyFile env (templateOf d (ch "thunder_robot.cpp")) (path ++ ch "thunder_" ++ name ++ ch ".cpp")

/-- `update_cmake("robot", robot_name, p)`, src/utils.cpp:258-280. -/
def updateCmake (env : Env) (name p : List Char) : Prog ℤ := fun d o =>
  match d.file p with
  | none => o = .ok 0 d
  | some t => ∃ r, ReplaceAll t (ch "robot") name r ∧ match r with
    | none => o = .exc d
    | some t' => o = .ok 1 (d.stream env p t')

/-- Lines 177-186: the result is 0 when `main` returns. -/
def pythonFiles (env : Env) (path name : List Char) (python : Bool) : Prog ℤ :=
  if python then do
    let d ← Prog.act Act.read
    Prog.act (copyFile env (templateOf d (ch "CMakeLists.txt")) (path ++ ch "CMakeLists.txt"))
    updateCmake env name (path ++ ch "CMakeLists.txt")
  else pure 1

/-- New contents, if any. -/
def Disk.store (env : Env) (p : List Char) (t : Option (List Char)) (d : Disk) : Disk :=
  match t with
  | none => d
  | some t => d.stream env p t

/-- `change_to_robot("robot", robot_name, robot, …)`, line 189, on the files `h` and `s`; what they contain after an exception is left open. -/
def changeFiles (env : Env) (name : List Char) (r : Robot) (h s : List Char) (python : Bool) : Prog ℤ := fun d o =>
  ∃ c, ChangeToRobot (ch "robot") name r python (d.file h) (d.file s) c ∧ match c with
    | .ret v th ts => o = .ok v ((d.store env h th).store env s ts)
    | .exc => ∃ d', o = .exc d' ∧ d'.dir = d.dir ∧ ∀ p, p ≠ h → p ≠ s → d'.file p = d.file p
    | .ub => o = .ub

/-- The comment of `save_par_REG`, src/robot.cpp:840-842. -/
def regComment : List Char := ch "Inertial parameters referred to Denavit-Hartenberg parametrization to use with regressor matrix\n"

/-- Lines 196-199: `save_conf` (src/robot.cpp:812-829, `y` is `config_yaml`) and `save_par_REG` (src/robot.cpp:831-883), whose results are ignored.
An exception of `save_par_REG` that is not a `YAML::Exception` leaves `main`. -/
def saveFiles (env : Env) (r : Robot) (y : Yaml) (conf reg : List Char) : Act Disk Unit := do
  Act.modify fun d => d.stream env conf (env.emit [] y)
  fun d => match Robot.saveParREG r with
    | .ok z _ => .ok () (d.stream env reg (env.emit regComment z))
    | .yaml _ => .ok () d
    | .exc _ => .exc d
    | .ub => .ub

/-- `copy_to`, lines 245-282: the six files, in order; an exception ends it. -/
def copyTo (env : Env) (name frm conf par h cpp : List Char) : Act Disk Unit := fun d =>
  match each (fun p => copyFile env p.1 p.2)
    [(frm ++ name ++ ch "_gen" ++ ch ".h", h ++ name ++ ch "_gen" ++ ch ".h"), (frm ++ name ++ ch "_gen" ++ ch ".cpp", cpp ++ name ++ ch "_gen" ++ ch ".cpp"),
      (frm ++ name ++ ch "_par_REG.yaml", par ++ name ++ ch "_par_REG.yaml"), (frm ++ name ++ ch "_conf.yaml", conf ++ name ++ ch "_conf.yaml"),
      (frm ++ ch "thunder_" ++ name ++ ch ".h", h ++ ch "thunder_" ++ name ++ ch ".h"),
      (frm ++ ch "thunder_" ++ name ++ ch ".cpp", cpp ++ ch "thunder_" ++ name ++ ch ".cpp")] d with
  | .exc d' => .ok () d'
  | r => r

/-- `COPY_PREFIX`, lines 206-212. -/
def copyPrefix (cwd : List Char) : List Char :=
  if (cwd.reverse.takeWhile (· ≠ '/')).reverse = ch "build" then join cwd (ch "../../../") else ch "/home/thunder_dev/thunder_dynamics/"

/-- Lines 213-230. -/
def copies (env : Env) (name path : List Char) (copy : Bool) : Act Disk Unit :=
  if copy then do
    let robot := copyPrefix env.cwd ++ ch "src/thunder_robot/"
    let chrono := copyPrefix env.cwd ++ ch "src/thunder_robot_chrono/"
    copyTo env name path (robot ++ ch "robots/") (robot ++ ch "robots/") (robot ++ ch "library/") (robot ++ ch "src/")
    copyTo env name path (chrono ++ ch "robots/") (chrono ++ ch "robots/") (chrono ++ ch "library/") (chrono ++ ch "src/")
  else pure ()

noncomputable section

variable [Fl]

/-- Lines 126-237, from the construction of the robot on. -/
def generate (env : Env) (us : List Robot.UserFun) (a : Args) (name : List Char) : Prog ℤ := do
  let d ← Prog.act Act.read
  let file := (d.file a.configFile).bind env.parse
  let r ← Prog.act fun d => match Robot.robotFromFileWith us (String.ofList name) file true with
    | .ok r => Res.ok r d
    | .exc => .exc d
    | .ub => .ub
  let path := join env.cwd (name ++ ch "_generatedFiles/")
  let made ← Prog.act fun d => match createDirectory env path d with
    | .exc d' => Res.ok false d'
    | .ok _ d' => .ok true d'
    | .yaml d' => .yaml d'
    | .ub => .ub
  if made = false then pure 0 else do
    Prog.act (generateLibrary env r path (name ++ ch "_gen") a.casadi)
    Prog.act (Act.ofExc (if env.home then some () else none))
    Prog.act (copyTemplates env path name)
    let changed ← pythonFiles env path name a.python
    if changed = 0 then pure 0 else do
      let changed ← changeFiles env name r (path ++ ch "thunder_" ++ name ++ ch ".h") (path ++ ch "thunder_" ++ name ++ ch ".cpp") a.python
      if changed = 0 then pure 0 else do
        Prog.act (saveFiles env r (file.getD .null) (path ++ name ++ ch "_conf.yaml") (path ++ name ++ ch "_par_REG.yaml"))
        Prog.act (copies env name path a.copy)
        pure 1

/-- `main`, lines 50-238. -/
def main (env : Env) (us : List Robot.UserFun) (a : Args) : Prog ℤ :=
  if a.ok = false then pure 0 else
  if a.hasConfig = false then Prog.act (Act.ofExc none) else
  match parseName a.configFile with
  | .invalid => pure 0
  | .throws => Prog.act (Act.ofExc none)
  | .ok _ name => generate env us a (a.name.getD name)

end

end Thunder.Gen
