import Verif.Model.Text
import Verif.Model.Template
import Verif.Model.Robot

/-!
# Instantiation of the template class: `change_to_robot` (`src/thunder/src/utils.cpp`)

Line numbers refer to `src/thunder/src/utils.cpp` unless another file is named.  Texts are lists of characters.  A file is its contents, `none`
when it cannot be opened.  `int` arithmetic does not overflow.
-/

namespace Thunder

/-- Characters of a string. -/
abbrev ch (s : String) : List Char := s.toList

/-- The part of `fun_obj` filled by `get_functions()`, library/utils.h:24-31. -/
structure FunObj where
  name : String
  descr : String
  args : List String
  rows : ℕ
  cols : ℕ

namespace Robot

open Act

noncomputable section

/-- Loop of `get_functions`, src/robot.cpp:572-585, over the remaining entries of `casadi_fun`; `fun_descr[name]`, `fun_args[name]` and
`model[name]` insert missing entries. -/
def functionsLoop : SMap CFun → Act Robot (List FunObj)
  | [] => pure []
  | p :: l => do
    modify fun r => { r with funDescr := r.funDescr.ins p.1 "", funArgs := r.funArgs.ins p.1 [], model := r.model.ins p.1 (SX.zeros 0 0) }
    let r ← read
    let fs ← functionsLoop l
    pure (⟨p.1, r.funDescr.get p.1 "", r.funArgs.get p.1 [], (r.mod p.1).rows, (r.mod p.1).cols⟩ :: fs)

/-- `get_functions()`, src/robot.cpp:567-587. -/
def getFunctions : Act Robot (List FunObj) := do
  let r ← read
  functionsLoop r.funs

end

end Robot

namespace Text

/-- `std::to_string` of a non-negative number. -/
def dec (n : ℕ) : List Char := ch (toString n)
/-- `std::to_string` of an `int`. -/
def decI (z : ℤ) : List Char := ch (toString z)

/-- `get_ret_type`, lines 429-433. -/
def retType (f : FunObj) : List Char := ch "Eigen::Matrix<double," ++ dec f.rows ++ ch "," ++ dec f.cols ++ ch ">"

/-- `index = s.find(pat); s.replace(index, pat.length(), rep)`: throws `out_of_range` when `pat` does not occur. -/
def replaceFirst (s pat rep : List Char) : Option (List Char) :=
  (find s pat 0).map fun i => s.take i ++ rep ++ s.drop (i + pat.length)

/-- Consecutive calls of `replace_all` on one text; `none`: an exception leaves the sequence. -/
inductive ReplaceSeq : List (List Char × List Char) → List Char → Option (List Char) → Prop
  | nil {s : List Char} : ReplaceSeq [] s (some s)
  | cons {p : List Char × List Char} {l : List (List Char × List Char)} {s s' : List Char} {r : Option (List Char)} :
      ReplaceAll s p.1 p.2 (some s') → ReplaceSeq l s' r → ReplaceSeq (p :: l) s r
  | exc {p : List Char × List Char} {l : List (List Char × List Char)} {s : List Char} :
      ReplaceAll s p.1 p.2 none → ReplaceSeq (p :: l) s none

/-- The values read from the robot, lines 109-120 (`functions` apart). -/
structure Info where
  robotName : List Char
  n : ℕ
  ne : ℕ
  elastic : Bool
  kI : ℤ
  dI : ℤ
  dlI : ℤ
  dmI : ℤ
  isEla : List ℤ

/-- `eJ_str`, lines 154-159; `none` when an element outside `isElasticJoint` is read (undefined behaviour). -/
def elasticText (l : List ℤ) (n : ℕ) : Option (List Char) :=
  match l with
  | [] => none
  | z :: l' => if n - 1 ≤ l'.length then
      some (ch "{" ++ decI z ++ (l'.take (n - 1)).flatMap (fun z => ch ", " ++ decI z) ++ ch "}") else none

/-- Replacements of lines 142-152, in order. -/
def headerSubst (frm dst : List Char) (i : Info) : List (List Char × List Char) :=
  [(frm, dst),
    (ch "/*#-ROBOT_NAME-#*/", i.robotName),
    (ch "/*#-n_joints-#*/", dec i.n),
    (ch "/*#-ELASTIC-#*/", if i.elastic then ch "1" else ch "0"),
    (ch "/*#-numElasticJoints-#*/", dec i.ne),
    (ch "/*#-K_order-#*/", decI i.kI),
    (ch "/*#-D_order-#*/", decI i.dI),
    (ch "/*#-Dl_order-#*/", decI i.dlI),
    (ch "/*#-Dm_order-#*/", decI i.dmI)]

/-- `functions_string` of the header, lines 163-167. -/
def headerFuns (fs : List FunObj) : List Char :=
  ch "\n" ++ fs.flatMap fun f => ch "\t\t// - " ++ ch f.descr ++ ch " - //\n" ++ (ch "\t\t" ++ retType f ++ ch " get_" ++ ch f.name ++ ch "();\n\n")

/-- Outcome of the processing of one file: new contents, exception, undefined behaviour. -/
inductive TextRes
  | ok (t : List Char)
  | exc
  | ub

/-- Lines 130-168: from the contents of the header template to the contents written back. -/
inductive Header (frm dst : List Char) (i : Info) (fs : List FunObj) (t : List Char) : TextRes → Prop
  | guard₁ : replaceFirst t (ch "THUNDERROBOT") (ch "THUNDER_" ++ dst) = none → Header frm dst i fs t .exc
  | guard₂ {t₁ : List Char} : replaceFirst t (ch "THUNDERROBOT") (ch "THUNDER_" ++ dst) = some t₁ →
      replaceFirst t₁ (ch "THUNDERROBOT") (ch "THUNDER_" ++ dst) = none → Header frm dst i fs t .exc
  | subst {t₁ t₂ : List Char} : replaceFirst t (ch "THUNDERROBOT") (ch "THUNDER_" ++ dst) = some t₁ →
      replaceFirst t₁ (ch "THUNDERROBOT") (ch "THUNDER_" ++ dst) = some t₂ → ReplaceSeq (headerSubst frm dst i) t₂ none → Header frm dst i fs t .exc
  | elastic {t₁ t₂ t₃ : List Char} : replaceFirst t (ch "THUNDERROBOT") (ch "THUNDER_" ++ dst) = some t₁ →
      replaceFirst t₁ (ch "THUNDERROBOT") (ch "THUNDER_" ++ dst) = some t₂ → ReplaceSeq (headerSubst frm dst i) t₂ (some t₃) →
      elasticText i.isEla i.n = none → Header frm dst i fs t .ub
  | last {t₁ t₂ t₃ e : List Char} : replaceFirst t (ch "THUNDERROBOT") (ch "THUNDER_" ++ dst) = some t₁ →
      replaceFirst t₁ (ch "THUNDERROBOT") (ch "THUNDER_" ++ dst) = some t₂ → ReplaceSeq (headerSubst frm dst i) t₂ (some t₃) →
      elasticText i.isEla i.n = some e →
      ReplaceSeq [(ch "/*#-isElasticJoint-#*/", e), (ch "/*#-FUNCTIONS_H-#*/", headerFuns fs)] t₃ none → Header frm dst i fs t .exc
  | ok {t₁ t₂ t₃ t₄ e : List Char} : replaceFirst t (ch "THUNDERROBOT") (ch "THUNDER_" ++ dst) = some t₁ →
      replaceFirst t₁ (ch "THUNDERROBOT") (ch "THUNDER_" ++ dst) = some t₂ → ReplaceSeq (headerSubst frm dst i) t₂ (some t₃) →
      elasticText i.isEla i.n = some e →
      ReplaceSeq [(ch "/*#-isElasticJoint-#*/", e), (ch "/*#-FUNCTIONS_H-#*/", headerFuns fs)] t₃ (some t₄) → Header frm dst i fs t (.ok t₄)

/-- The declaration of the pointer array, lines 221-229. -/
def inputText : List String → List Char
  | [] => ch "\tconst double** input_ = nullptr;\n"
  | a :: l => ch "\tconst double* input_[] = {" ++ ch a ++ ch ".data()" ++ l.flatMap (fun a => ch ", " ++ ch a ++ ch ".data()") ++ ch "};\n"

/-- The text of one function, lines 201-234 (`fun_name`, `fun_name_gen`, `size_str`, … inlined). -/
def sourceFun (robotName dst : List Char) (f : FunObj) : List Char :=
  ch "// - " ++ ch f.descr ++ ch " - //\n"
  ++ (retType f ++ ch " thunder_" ++ dst ++ ch "::get_" ++ ch f.name ++ ch "(){\n")
  ++ (ch "\tthread_local double buffer[" ++ dec (f.rows * f.cols) ++ ch "];\n")
  ++ (ch "\tthread_local long long p3[" ++ robotName ++ ch "_" ++ ch f.name ++ ch "_fun_SZ_IW];\n")
  ++ (ch "\tthread_local double p4[" ++ robotName ++ ch "_" ++ ch f.name ++ ch "_fun_SZ_W];\n")
  ++ inputText f.args
  ++ ch "\tdouble* output_[] = {buffer};\n"
  ++ (ch "\tint check = " ++ robotName ++ ch "_" ++ ch f.name ++ ch "_fun(input_, output_, p3, p4, 0);\n")
  ++ (ch "\treturn Eigen::Map<" ++ retType f ++ ch ">(buffer);\n")
  ++ ch "}\n\n"

/-- `functions_string` of the source, lines 197-239. -/
def sourceFuns (robotName dst : List Char) (fs : List FunObj) : List Char := ch "\n" ++ fs.flatMap (sourceFun robotName dst)

/-- `functions_pybindings`, lines 236-245: the last character is dropped (undefined behaviour, `none`, on an empty text) and `";\n"` appended. -/
def bindingFuns (dst : List Char) (fs : List FunObj) : Option (List Char) :=
  let t := fs.flatMap fun f => ch "\t\t.def(\"get_" ++ ch f.name ++ ch "\", &thunder_" ++ dst ++ ch "::get_" ++ ch f.name ++ ch ", \"" ++ ch f.descr ++ ch "\")\n"
  if t = [] then none else some (t.dropLast ++ ch ";\n")

/-- A text from its lines. -/
def unlines (ls : List (List Char)) : List Char := List.intercalate ['\n'] ls

/-- `bindings_template`, lines 283-336. -/
def bindingText : List Char := unlines (bindingLines.map ch)
/-- `bindings_import`, line 339. -/
def bindingImport : List Char := ch "#include <pybind11/pybind11.h>\n#include <pybind11/eigen.h>\n"

/-- `add_bindings_template`, lines 341-362. -/
def bindingSubst : List (List Char × List Char) :=
  [(ch "/*#-OPTIONAL SPACE FOR PYTHON BINDINGS-#*/", bindingText), (ch "/*OPTIONAL PYBIND11 INCLUDE POINT*/", bindingImport)]

/-- Lines 177-251: from the contents of the source template to the contents written back. -/
inductive Source (frm dst : List Char) (i : Info) (fs : List FunObj) (py : Bool) (t : List Char) : TextRes → Prop
  | bind : ReplaceSeq (if py then bindingSubst else []) t none → Source frm dst i fs py t .exc
  | subst {t₁ : List Char} : ReplaceSeq (if py then bindingSubst else []) t (some t₁) →
      ReplaceSeq [(frm, dst), (ch "/*#-FUNCTIONS_CPP-#*/", sourceFuns i.robotName dst fs)] t₁ none → Source frm dst i fs py t .exc
  | pop {t₁ t₂ : List Char} : ReplaceSeq (if py then bindingSubst else []) t (some t₁) →
      ReplaceSeq [(frm, dst), (ch "/*#-FUNCTIONS_CPP-#*/", sourceFuns i.robotName dst fs)] t₁ (some t₂) →
      py = true → bindingFuns dst fs = none → Source frm dst i fs py t .ub
  | last {t₁ t₂ b : List Char} : ReplaceSeq (if py then bindingSubst else []) t (some t₁) →
      ReplaceSeq [(frm, dst), (ch "/*#-FUNCTIONS_CPP-#*/", sourceFuns i.robotName dst fs)] t₁ (some t₂) →
      py = true → bindingFuns dst fs = some b → ReplaceSeq [(ch "/*#-GENERATED_PYTHON_BINDINGS-#*/", b)] t₂ none → Source frm dst i fs py t .exc
  | okPy {t₁ t₂ t₃ b : List Char} : ReplaceSeq (if py then bindingSubst else []) t (some t₁) →
      ReplaceSeq [(frm, dst), (ch "/*#-FUNCTIONS_CPP-#*/", sourceFuns i.robotName dst fs)] t₁ (some t₂) →
      py = true → bindingFuns dst fs = some b → ReplaceSeq [(ch "/*#-GENERATED_PYTHON_BINDINGS-#*/", b)] t₂ (some t₃) →
      Source frm dst i fs py t (.ok t₃)
  | ok {t₁ t₂ : List Char} : ReplaceSeq (if py then bindingSubst else []) t (some t₁) →
      ReplaceSeq [(frm, dst), (ch "/*#-FUNCTIONS_CPP-#*/", sourceFuns i.robotName dst fs)] t₁ (some t₂) →
      py = false → Source frm dst i fs py t (.ok t₂)

/-- Outcome of `change_to_robot`: the returned number and the contents of the two files. -/
inductive Changed
  | ret (v : ℤ) (h cpp : Option (List Char))
  | exc
  | ub

/-- The getters called in lines 109-117. -/
def infoOf (r : Robot) : Info := ⟨ch r.name, r.n, r.ne, r.elastic, r.kI, r.dI, r.dlI, r.dmI, r.isEla⟩

/-- `change_to_robot(from_robot, to_robot, robot, file_path_h, file_path_cpp, gen_python)`, lines 106-254, on two files with the given contents. -/
inductive ChangeToRobot (frm dst : List Char) (r : Robot) (py : Bool) : Option (List Char) → Option (List Char) → Changed → Prop
  | noH {cpp : Option (List Char)} : ChangeToRobot frm dst r py none cpp (.ret 0 none cpp)
  | excH {fs : List FunObj} {r' : Robot} {h : List Char} {cpp : Option (List Char)} : Robot.getFunctions r = .ok fs r' →
      Header frm dst (infoOf r) fs h .exc → ChangeToRobot frm dst r py (some h) cpp .exc
  | ubH {fs : List FunObj} {r' : Robot} {h : List Char} {cpp : Option (List Char)} : Robot.getFunctions r = .ok fs r' →
      Header frm dst (infoOf r) fs h .ub → ChangeToRobot frm dst r py (some h) cpp .ub
  | noCpp {fs : List FunObj} {r' : Robot} {h h' : List Char} : Robot.getFunctions r = .ok fs r' →
      Header frm dst (infoOf r) fs h (.ok h') → ChangeToRobot frm dst r py (some h) none (.ret 0 (some h') none)
  | excCpp {fs : List FunObj} {r' : Robot} {h h' cpp : List Char} : Robot.getFunctions r = .ok fs r' →
      Header frm dst (infoOf r) fs h (.ok h') → Source frm dst (infoOf r) fs py cpp .exc → ChangeToRobot frm dst r py (some h) (some cpp) .exc
  | ubCpp {fs : List FunObj} {r' : Robot} {h h' cpp : List Char} : Robot.getFunctions r = .ok fs r' →
      Header frm dst (infoOf r) fs h (.ok h') → Source frm dst (infoOf r) fs py cpp .ub → ChangeToRobot frm dst r py (some h) (some cpp) .ub
  | ok {fs : List FunObj} {r' : Robot} {h h' cpp cpp' : List Char} : Robot.getFunctions r = .ok fs r' →
      Header frm dst (infoOf r) fs h (.ok h') → Source frm dst (infoOf r) fs py cpp (.ok cpp') →
      ChangeToRobot frm dst r py (some h) (some cpp) (.ret 1 (some h') (some cpp'))

/-- The files copied by `main` before the call, src/thunder/thunder_main.cpp:166-175. -/
def headerFile : List Char := unlines (headerLines.map ch)
/-- The copied source, src/thunder/thunder_main.cpp:166-175. -/
def sourceFile : List Char := unlines (sourceLines.map ch)
/-- The file copied with bindings, src/thunder/thunder_main.cpp:179. -/
def cmakeFile : List Char := unlines (cmakeLines.map ch)

/-- The call in `main`, src/thunder/thunder_main.cpp:189, for a robot called `name`. -/
def Instantiate (name : List Char) (r : Robot) (py : Bool) (o : Changed) : Prop :=
  ChangeToRobot (ch "robot") name r py (some headerFile) (some sourceFile) o

end Text

end Thunder
