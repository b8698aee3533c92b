import Verif.Spec.Instantiate
import Verif.Spec.Config

/-!
# Specification: reading constants, guards and includes from the text of the generated class
-/

namespace Thunder.Spec

/-- A constant member: its type, its name (with the size in brackets for an array), and the text of its value. -/
structure Const where
  type : List Char
  name : List Char
  value : List Char

/-- The line declares the constant. -/
def DeclaresConst (l : List Char) (k : Const) : Prop :=
  ∃ ws, Blank ws ∧ ' ' ∉ k.type ∧ ' ' ∉ k.name ∧
    l = ws ++ "const ".toList ++ k.type ++ " ".toList ++ k.name ++ " = ".toList ++ k.value ++ ";".toList

/-- The constants declared by a list of lines, in order. -/
inductive Constants : List (List Char) → List Const → Prop
  | nil : Constants [] []
  | skip {l : List Char} {ls : List (List Char)} {ks : List Const} : (∀ k, ¬ DeclaresConst l k) → Constants ls ks → Constants (l :: ls) ks
  | decl {l : List Char} {k : Const} {ls : List (List Char)} {ks : List Const} : DeclaresConst l k → Constants ls ks → Constants (l :: ls) (k :: ks)

/-- The lines are inside an include guard: the name that is tested is the one that is defined. -/
def Guarded (ls : List (List Char)) : Prop :=
  ∃ G mid, ls = ("#ifndef ".toList ++ G) :: ("#define ".toList ++ G) :: (mid ++ ["#endif".toList])

/-- The line that includes the file `f` of the same directory. -/
def includes (f : List Char) : List Char := "#include \"".toList ++ f ++ "\"".toList

/-- The line of a build file for a Python module `m` with the given sources. -/
def moduleLine (m : List Char) (srcs : List (List Char)) : List Char :=
  "pybind11_add_module(".toList ++ m ++ srcs.flatMap (" ".toList ++ ·) ++ ")".toList

/-- The line of a build file that links the target `m` with what `ls` says. -/
def linkLine (m ls : List Char) : List Char := "target_link_libraries(".toList ++ m ++ " PRIVATE ".toList ++ ls ++ ")".toList

/-- The line of a source that begins the definition of the Python module `m`. -/
def moduleHead (m : List Char) : List Char := "PYBIND11_MODULE(".toList ++ m ++ ", m) {".toList

/-- The decimal text of an integer. -/
def numeral : Int → List Char
  | .ofNat n => Nat.toDigits 10 n
  | .negSucc n => '-' :: Nat.toDigits 10 (n + 1)

/-- An integer constant. -/
def intConst (name : String) (v : Int) : Const := ⟨"int".toList, name.toList, numeral v⟩

/-- The constants of the class for a configuration and a robot name; the array says for each joint whether its actuator is elastic. -/
noncomputable def classConsts (c : Conf) (name : String) : List Const :=
  [intConst "STD_PAR_LINK" 10, ⟨"std::string".toList, name.toList ++ "Name".toList, "\"".toList ++ name.toList ++ "\"".toList⟩, intConst "n_joints" c.n,
    ⟨"bool".toList, "ELASTIC".toList, if c.elastic then "1".toList else "0".toList⟩, intConst "numElasticJoints" c.ne, intConst "K_order" c.kO,
    intConst "D_order" c.dO, intConst "Dl_order" c.dlO, intConst "Dm_order" c.dmO,
    ⟨"int".toList, "numParDYN".toList, "STD_PAR_LINK*n_joints".toList⟩, ⟨"int".toList, "numParREG".toList, "STD_PAR_LINK*n_joints".toList⟩,
    ⟨"int".toList, "isElasticJoint[".toList ++ numeral c.n ++ "]".toList,
      "{".toList ++ commas (c.types.map fun t => if t = "R_SEA" ∨ t = "P_SEA" then "1".toList else "0".toList) ++ "}".toList⟩]

end Thunder.Spec
