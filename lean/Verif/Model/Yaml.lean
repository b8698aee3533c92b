import Verif.Model.Num
import Mathlib.Data.Int.Notation

/-!
# YAML trees and the parts of yaml-cpp used by the code

A file is the tree obtained by `YAML::LoadFile`.  `Option` results: `none` is an exception derived from `YAML::Exception`.  The insertion of
undefined entries by the non-const `operator[]` is not modelled (such entries are skipped by lookups, iteration and emission).
-/

namespace Thunder

/-- A scalar: its text and the results of the conversions used by the code (`none`: the conversion fails).  Any combination of results is
allowed, so that nothing is assumed about the number formats of yaml-cpp. -/
structure Scalar where
  text : String
  dbl : Option Num
  int : Option ℤ
  bool : Option Bool

/-- A node handle.  `undef` is a node without value (returned by the non-const `operator[]` for a missing key); `zombie` is the invalid node
returned by the const `operator[]`.  Keys of maps are their text; `none` is a key without one. -/
inductive Yaml
  | zombie
  | undef
  | null
  | scalar (s : Scalar)
  | seq (l : List Yaml)
  | map (l : List (Option String × Yaml))

namespace Yaml

/-- `operator bool` (`IsDefined`). -/
def isDef : Yaml → Bool
  | zombie => false
  | undef => false
  | _ => true

/-- First entry with the given key. -/
def lookup (k : String) (l : List (Option String × Yaml)) : Option Yaml := (l.find? fun p => p.1 == some k).map Prod.snd

/-- Non-const `node[key]`. -/
def getM (y : Yaml) (k : String) : Option Yaml :=
  match y with
  | zombie => none
  | scalar _ => none
  | map l => some ((lookup k l).getD undef)
  | _ => some undef

/-- Const `node[key]` (on `node.second` of an iterator, or on the result of another const lookup). -/
def getC (y : Yaml) (k : String) : Option Yaml :=
  match y with
  | zombie => none
  | scalar _ => none
  | map l => some ((lookup k l).getD zombie)
  | _ => some zombie

/-- `for (const auto& node : y)`: pairs `node.first`, `node.second`; for a sequence both are invalid nodes. -/
def items : Yaml → List (Option String × Yaml)
  | map l => l
  | seq l => l.map fun _ => (none, zombie)
  | _ => []

/-- `as<double>()`. -/
def asD : Yaml → Option Num
  | scalar s => s.dbl
  | _ => none
/-- `as<int>()`. -/
def asI : Yaml → Option ℤ
  | scalar s => s.int
  | _ => none
/-- `as<bool>()`. -/
def asB : Yaml → Option Bool
  | scalar s => s.bool
  | _ => none
/-- `as<std::string>()`. -/
def asS : Yaml → Option String
  | scalar s => some s.text
  | null => some "null"
  | _ => none

/-- `as<std::vector<T>>()`. -/
def asVec {α : Type} (f : Yaml → Option α) : Yaml → Option (List α)
  | seq l => l.mapM f
  | _ => none

/-- `Node(double)`: the text written with 17 significant digits converts back to the same value.  Its other conversions are not used. -/
def ofD (x : Num) : Yaml := scalar ⟨"", some x, none, none⟩
/-- `Node(std::vector<double>)`. -/
def ofVec (l : List Num) : Yaml := seq (l.map ofD)

/-- `node[key] = value` on a node under construction. -/
def setKey (y : Yaml) (k : String) (v : Yaml) : Yaml :=
  match y with
  | map l => if (lookup k l).isSome then map (l.map fun p => if p.1 == some k then (p.1, v) else p) else map (l ++ [(some k, v)])
  | _ => map [(some k, v)]

end Yaml

end Thunder
