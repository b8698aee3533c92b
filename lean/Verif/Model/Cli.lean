import Verif.Model.Text

/-!
# Exit status of `thunder gen`

`main`, src/thunder/thunder_main.cpp:50-238.  Every call whose outcome depends on the outside world (argument parsing, robot construction,
file operations) is an input of the model.
-/

namespace Thunder.Cli

/-- How a call ends. -/
inductive Call
  | returns
  | throws
  deriving DecidableEq

/-- Outcomes of the calls made by `main`. -/
structure World where
  /-- `thunder_cli.parse_args` accepts the command line, thunder_main.cpp:82-88.  (With `--help` or `--version` it ends the program with status 0.) -/
  argsOk : Bool
  /-- The `gen` sub-command with its `config_file` is present; otherwise `get<std::string>` throws, thunder_main.cpp:91. -/
  hasConfig : Bool
  configFile : List Char
  python : Bool
  casadi : Bool
  copy : Bool
  /-- `robot_from_file`, thunder_main.cpp:126. -/
  robotFromFile : Call
  /-- `std::filesystem::current_path()`, thunder_main.cpp:133. -/
  cwd : Call
  /-- `create_directory`, thunder_main.cpp:137-142. -/
  createDir : Call
  /-- `robot.generate_library`, thunder_main.cpp:147. -/
  generate : Call
  /-- `std::string home = getenv("HOME")` throws when HOME is unset, thunder_main.cpp:157. -/
  home : Call
  /-- The two `copy_file` calls, thunder_main.cpp:169-175. -/
  copyTemplates : Call
  /-- `copy_file` of CMakeLists.txt, thunder_main.cpp:179. -/
  copyCmake : Call
  /-- Return value of `update_cmake`, thunder_main.cpp:180. -/
  updateCmake : Int
  /-- Return value of `change_to_robot`, thunder_main.cpp:189. -/
  changeToRobot : Int
  /-- `save_conf` and `save_par_REG` (return values are ignored), thunder_main.cpp:198-199. -/
  savePar : Call
  /-- `copy_to` (return value ignored), thunder_main.cpp:221-230. -/
  copyTo : Call

/-- Observable end of `main`. -/
structure Result where
  /-- Exit status; `none` when an exception leaves `main`. -/
  status : Option Int
  /-- "Library generated!" was reached, thunder_main.cpp:204. -/
  generated : Bool
  deriving DecidableEq

/-- Run the rest when the call returned. -/
def Call.andThen (c : Call) (g : Bool) (k : Result) : Result :=
  match c with
  | .returns => k
  | .throws => ⟨none, g⟩

/-- `main`, thunder_main.cpp:50-238. -/
def main (w : World) : Result :=
  if !w.argsOk then ⟨some 0, false⟩ else
  if !w.hasConfig then ⟨none, false⟩ else
  match Text.parseName w.configFile with
  | .invalid => ⟨some 0, false⟩
  | .throws => ⟨none, false⟩
  | .ok _ _ =>
    w.robotFromFile.andThen false <| w.cwd.andThen false <|
    match w.createDir with
    | .throws => ⟨some 0, false⟩
    | .returns =>
      w.generate.andThen false <| w.home.andThen false <| w.copyTemplates.andThen false <|
      (if w.python then w.copyCmake else .returns).andThen false <|
      if w.python && w.updateCmake == 0 then ⟨some 0, false⟩ else
      if w.changeToRobot == 0 then ⟨some 0, false⟩ else
      w.savePar.andThen false <|
      (if w.copy then w.copyTo else .returns).andThen true ⟨some 1, true⟩

end Thunder.Cli
