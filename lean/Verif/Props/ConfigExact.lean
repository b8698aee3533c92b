import Verif.Lemmas.ConfigExact
import Verif.Props.Config

/-!
# C38: the exact conditions
-/

namespace Thunder

open Spec Act Robot

set_option linter.unusedSimpArgs false

/-- C38 exactly, for every document: the constructor has undefined behaviour if and only if the document is one of those described by
`BadConfig`. -/
theorem C38_iff {y : Yaml} (hy : Parsed y) : construct y = .ub ↔ BadConfig y := construct_ub hy

/-- The constructor that takes the name of a file: undefined behaviour also when the file cannot be loaded. -/
theorem C38_iff_file {file : Option Yaml} (hf : ∀ y, file = some y → Parsed y) :
    constructFile file = .ub ↔ file = none ∨ ∃ y, file = some y ∧ BadConfig y := by
  cases file with
  | none => simp [C38_fails]
  | some y =>
    rw [show constructFile (some y) = construct y from rfl, C38_iff (hf y rfl)]
    simp

namespace Ex

theorem doc_scalars {l : List Yaml} (h : ∀ z ∈ l, ∃ s, z = .scalar s) : Parsed (.seq l) :=
  .seq fun z hz => by obtain ⟨s, rfl⟩ := h z hz; exact .scalar s

theorem doc_ofVec (l : List Num) : Parsed (Yaml.ofVec l) := doc_scalars fun z hz => by
  obtain ⟨x, -, rfl⟩ := List.mem_map.1 hz
  exact ⟨_, rfl⟩

theorem doc_frame (tr : List Num) : Parsed (frame tr) := .map fun e he => by
  simp only [List.mem_cons, List.not_mem_nil, or_false] at he
  rcases he with rfl | rfl <;> exact doc_ofVec _

theorem doc_conf (ts : List String) (tr : List Num) {links : List (Option String × Yaml)} (hl : ∀ e ∈ links, Parsed e.2) : Parsed (conf ts tr links) := by
  refine .map fun e he => ?_
  simp only [List.mem_cons, List.not_mem_nil, or_false] at he
  rcases he with rfl | rfl | rfl | rfl | rfl | rfl
  · exact .scalar _
  · refine doc_scalars fun z hz => ?_
    obtain ⟨x, -, rfl⟩ := List.mem_map.1 hz
    exact ⟨_, rfl⟩
  · refine .map fun e he => ?_
    simp only [List.mem_cons, List.not_mem_nil, or_false] at he
    subst he
    exact doc_ofVec _
  · exact doc_frame _
  · exact doc_frame _
  · exact .map hl

theorem doc_link : Parsed (.map [(some "inertial", inert)]) := by
  refine .map fun e he => ?_
  simp only [List.mem_cons, List.not_mem_nil, or_false] at he
  subst he
  refine .map fun e he => ?_
  simp only [List.mem_cons, List.not_mem_nil, or_false] at he
  rcases he with rfl | rfl | rfl | rfl | rfl | rfl | rfl | rfl | rfl | rfl | rfl
  any_goals exact .scalar _
  refine doc_scalars fun z hz => ?_
  simp only [List.mem_cons, List.not_mem_nil, or_false] at hz
  rcases hz with rfl | rfl | rfl | rfl | rfl | rfl | rfl | rfl | rfl | rfl <;> exact ⟨_, rfl⟩

/-- The example of a well-formed file is a document, and none of the bad ones. -/
example : Parsed goodConf ∧ ¬ BadConfig goodConf := by
  have hd : Parsed goodConf := doc_conf _ _ fun e he => by
    simp only [List.mem_cons, List.not_mem_nil, or_false] at he
    subst he
    exact doc_link
  refine ⟨hd, fun h => C38_partial (describes_conf "R").safe ((C38_iff hd).2 h)⟩

/-- A file with one link more than joints is a document, and a bad one. -/
example : Parsed (conf ["R"] [some 0, some 0, some 0] [(some "link1", .map [(some "inertial", inert)]), (some "link2", .map [(some "inertial", inert)])]) ∧
    BadConfig (conf ["R"] [some 0, some 0, some 0] [(some "link1", .map [(some "inertial", inert)]), (some "link2", .map [(some "inertial", inert)])]) := by
  have hd : Parsed (conf ["R"] [some 0, some 0, some 0] [(some "link1", .map [(some "inertial", inert)]), (some "link2", .map [(some "inertial", inert)])]) :=
    doc_conf _ _ fun e he => by
      simp only [List.mem_cons, List.not_mem_nil, or_false] at he
      rcases he with rfl | rfl <;> exact doc_link
  exact ⟨hd, (C38_iff hd).1 C38_fails_links⟩

/-- One link more than joints does no harm when it comes with an empty list of flags: the conditions of `C38_partial` are not necessary. -/
example : Parsed (conf ["R"] [some 0, some 0, some 0] [(some "link1", .map [(some "inertial", inert)]), (some "link2", .map [(some "inertial", .map [(some "symb", .seq [])])])]) ∧
    construct (conf ["R"] [some 0, some 0, some 0] [(some "link1", .map [(some "inertial", inert)]), (some "link2", .map [(some "inertial", .map [(some "symb", .seq [])])])]) ≠ .ub ∧
    ¬ SafeConfig (conf ["R"] [some 0, some 0, some 0] [(some "link1", .map [(some "inertial", inert)]), (some "link2", .map [(some "inertial", .map [(some "symb", .seq [])])])]) 1 := by
  refine ⟨doc_conf _ _ fun e he => ?_, ?_, fun h => ?_⟩
  · simp only [List.mem_cons, List.not_mem_nil, or_false] at he
    rcases he with rfl | rfl
    · exact doc_link
    · refine .map fun e he => ?_
      simp only [List.mem_cons, List.not_mem_nil, or_false] at he
      subst he
      refine .map fun e he => ?_
      simp only [List.mem_cons, List.not_mem_nil, or_false] at he
      subst he
      exact .seq fun z hz => by simp at hz
  · simp [construct, parse, parseBasic, at1, Yaml.getM, Yaml.lookup, Ex.int, Yaml.asI, bind_def, Yaml.asVec, Ex.word, Yaml.asS, opt, Yaml.isDef, classify,
      Ex.conf, Ex.inert, Ex.frame, parseNums, Yaml.ofVec, Yaml.ofD, Yaml.asD, parseDynSymb, symbLinks, Yaml.items, Yaml.getC, copyAt, parseDlSymb,
      parseElaSymb, Part.new, putSymb, parseKinSymb, symbOpt, parseFinal, first3, initVars, Part.SizesOk]
  · have := h.links _ (child_of_lookup rfl)
    simp at this

end Ex

end Thunder
