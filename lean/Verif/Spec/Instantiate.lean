import Mathlib.Data.List.Basic
import Mathlib.Data.List.Perm.Basic

/-!
# Specification: reading the getters from the text of the generated class

A line-based reading of the generated C++ text: which lines declare a getter with an Eigen matrix of fixed size, which lines define one, and
what the statements of such a definition do.
-/

namespace Thunder.Spec

/-- The lines of a text. -/
def textLines (t : List Char) : List (List Char) := t.splitOn '\n'

/-- Spaces and tabs only. -/
def Blank (ws : List Char) : Prop := ∀ c ∈ ws, c = ' ' ∨ c = '\t'

/-- A getter: the size of the matrix it returns, and what follows `get_` in its name. -/
structure Getter where
  rows : ℕ
  cols : ℕ
  name : List Char

/-- The type of the result. -/
def Getter.type (g : Getter) : List Char :=
  "Eigen::Matrix<double,".toList ++ Nat.toDigits 10 g.rows ++ [','] ++ Nat.toDigits 10 g.cols ++ ['>']

/-- The line declares the getter as a member without arguments. -/
def Declares (l : List Char) (g : Getter) : Prop :=
  ∃ ws, Blank ws ∧ l = ws ++ g.type ++ " get_".toList ++ g.name ++ "();".toList

/-- The getters declared by a list of lines, in order. -/
inductive Declared : List (List Char) → List Getter → Prop
  | nil : Declared [] []
  | skip {l : List Char} {ls : List (List Char)} {gs : List Getter} : (∀ g, ¬ Declares l g) → Declared ls gs → Declared (l :: ls) gs
  | decl {l : List Char} {g : Getter} {ls : List (List Char)} {gs : List Getter} : Declares l g → Declared ls gs → Declared (l :: ls) (g :: gs)

/-- The line opens the definition of the getter as a member of `thunder_<robot>`. -/
def Opens (robot l : List Char) (g : Getter) : Prop :=
  ∃ ws, Blank ws ∧ l = ws ++ g.type ++ " thunder_".toList ++ robot ++ "::get_".toList ++ g.name ++ "(){".toList

/-- The getters defined by a list of lines, in order, each with the lines of its body (up to the first line `}`). -/
inductive Defined (robot : List Char) : List (List Char) → List (Getter × List (List Char)) → Prop
  | nil : Defined robot [] []
  | skip {l : List Char} {ls : List (List Char)} {ds : List (Getter × List (List Char))} : (∀ g, ¬ Opens robot l g) → Defined robot ls ds →
      Defined robot (l :: ls) ds
  | defn {l : List Char} {g : Getter} {body ls : List (List Char)} {ds : List (Getter × List (List Char))} : Opens robot l g →
      (∀ b ∈ body, b ≠ ['}']) → Defined robot ls ds → Defined robot (l :: (body ++ ['}'] :: ls)) ((g, body) :: ds)

/-- Statements of a getter. -/
inductive Stmt
  /-- `thread_local ty name[size];` -/
  | array (ty name size : List Char)
  /-- `const double** name = nullptr;` -/
  | noInputs (name : List Char)
  /-- `const double* name[] = {elems};` -/
  | inputs (name : List Char) (elems : List (List Char))
  /-- `double* name[] = {elems};` -/
  | outputs (name : List Char) (elems : List (List Char))
  /-- `int check = fn(args);` -/
  | call (fn : List Char) (args : List (List Char))
  /-- `return Eigen::Map<ty>(buf);` -/
  | ret (ty buf : List Char)

/-- Elements separated by a comma and a space. -/
def commas (l : List (List Char)) : List Char := List.intercalate ", ".toList l

/-- Text of a statement. -/
def Stmt.text : Stmt → List Char
  | .array ty name size => "thread_local ".toList ++ ty ++ " ".toList ++ name ++ "[".toList ++ size ++ "];".toList
  | .noInputs name => "const double** ".toList ++ name ++ " = nullptr;".toList
  | .inputs name elems => "const double* ".toList ++ name ++ "[] = {".toList ++ commas elems ++ "};".toList
  | .outputs name elems => "double* ".toList ++ name ++ "[] = {".toList ++ commas elems ++ "};".toList
  | .call fn args => "int check = ".toList ++ fn ++ "(".toList ++ commas args ++ ");".toList
  | .ret ty buf => "return Eigen::Map<".toList ++ ty ++ ">(".toList ++ buf ++ ");".toList

/-- The declaration of the array of input pointers: the data of the members `args`, in this order. -/
def inputDecl (name : List Char) (args : List (List Char)) : Stmt :=
  if args = [] then .noInputs name else .inputs name (args.map (· ++ ".data()".toList))

/-- The statements call the C function `fn` once, with the data of the members `args` as inputs (in this order), a buffer of the size of the
result as output and work arrays of the sizes that the C function asks for, all three with thread storage, and return the buffer. -/
def Evaluates (b : List Stmt) (g : Getter) (fn : List Char) (args : List (List Char)) : Prop :=
  ∃ inp out iw w buf ds, [inp, out, iw, w, buf].Nodup ∧ b = ds ++ [.call fn [inp, out, iw, w, ['0']], .ret g.type buf] ∧
    ds.Perm [inputDecl inp args, .outputs out [buf], .array "long long".toList iw (fn ++ "_SZ_IW".toList),
      .array "double".toList w (fn ++ "_SZ_W".toList), .array "double".toList buf (Nat.toDigits 10 (g.rows * g.cols))] ∧
    [Stmt.array "double".toList buf (Nat.toDigits 10 (g.rows * g.cols)), .outputs out [buf]].Sublist ds

/-- The lines are those of such statements. -/
def Body (b : List (List Char)) (g : Getter) (fn : List Char) (args : List (List Char)) : Prop :=
  ∃ ss : List Stmt, b = ss.map (fun s => '\t' :: s.text) ∧ Evaluates ss g fn args

end Thunder.Spec
