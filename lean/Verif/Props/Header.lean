import Verif.Lemmas.HeaderText
import Verif.Lemmas.Dims
import Verif.Props.Instantiate

/-!
# The constants, the guard, the includes and the module of the generated class: C75
-/

open scoped Classical

namespace Thunder

noncomputable section

open Spec Act Robot Text

theorem getFunctions_reports (r : Robot) : ∃ r', Robot.getFunctions r = .ok (reports r) r' := Robot.getFunctions_run r

/-- The lines of the texts, for any robot. -/
theorem lines_ok {dst : List Char} {r : Robot} {py : Bool} (hd : RepOk dst) (hs : ' ' ∉ dst) (hi : InfoOk (infoOf r)) (hf : ∀ f ∈ reports r, FunOk f)
    (hp : py = true → r.funs ≠ []) {h s : List Char} (ho : ∀ o, Instantiate dst r py o ↔ o = .ret 1 (some h) (some s)) :
    (Constants (textLines h) (constsOf dst (infoOf r)) ∧ (Guarded (textLines h) ↔ ¬ patGuard <:+: dst) ∧ ch "class thunder_" ++ dst ++ ch "{" ∈ textLines h) ∧
      (∃ mid, textLines s = includes (ch "thunder_" ++ dst ++ ch ".h") :: includes (dst ++ ch "_gen.h") :: mid) ∧
      (py = true → moduleHead (ch "thunder_" ++ dst ++ ch "_py") ∈ textLines s) := by
  obtain ⟨r', hg⟩ := getFunctions_reports r
  obtain ⟨h', h1, -⟩ := header_ok hd hi hf
  have hne : py = true → reports r ≠ [] := fun hpy e => hp hpy (List.map_eq_nil_iff.1 e)
  obtain ⟨s', s1⟩ : ∃ s', ∀ o, Source (ch "robot") dst (infoOf r) (reports r) py sourceFile o ↔ o = .ok s' := by
    cases py with
    | false => obtain ⟨s', s1, -⟩ := source_ok (fs := reports r) hd hi hf; exact ⟨s', s1⟩
    | true => obtain ⟨s', s1, -⟩ := source_py_ok (fs := reports r) hd hi hf (hne rfl); exact ⟨s', s1⟩
  have hh := (ho _).1 ((change_iff hg h1 s1 _).2 rfl)
  obtain ⟨e1, e2⟩ : h' = h ∧ s' = s := by simpa using hh
  subst e1 e2
  exact ⟨header_lines_ok hd hs hi hf h1, source_lines_ok hd s1 hne⟩

/-! ## The constants of a configuration -/

theorem numeral_flag (t : String) : numeral (if isSEA t then 1 else 0) = if t = "R_SEA" ∨ t = "P_SEA" then "1".toList else "0".toList := by
  have h1 : numeral 1 = "1".toList := by decide +kernel
  have h0 : numeral 0 = "0".toList := by decide +kernel
  by_cases h : t = "R_SEA" ∨ t = "P_SEA"
  · have : isSEA t = true := by simpa [isSEA] using h
    rw [if_pos h, if_pos this, h1]
  · have : isSEA t = false := by simpa [isSEA] using h
    rw [if_neg h, this, if_neg (by simp), h0]

theorem constsOf_eq {c : Conf} {name : String} {r : Robot} (hn : r.name = name) (hi : r.isEla = (robotOf c).isEla)
    (hdm : r.dims = (c.n, c.ne, c.elastic, (c.kO : ℤ), (c.dO : ℤ), (c.dlO : ℤ), (c.dmO : ℤ))) : constsOf (ch name) (infoOf r) = classConsts c name := by
  obtain ⟨h1, h2, h3, h4, h5, h6, h7⟩ : r.n = c.n ∧ r.ne = c.ne ∧ r.elastic = c.elastic ∧ r.kI = c.kO ∧ r.dI = c.dO ∧ r.dlI = c.dlO ∧ r.dmI = c.dmO := by
    simpa [dims] using hdm
  have h10 : intConst "STD_PAR_LINK" 10 = ⟨ch "int", ch "STD_PAR_LINK", ch "10"⟩ := by
    have : numeral 10 = ch "10" := by decide +kernel
    rw [intConst, this]
  have he : (r.isEla.take r.n).map numeral = c.types.map fun t => if t = "R_SEA" ∨ t = "P_SEA" then "1".toList else "0".toList := by
    rw [hi, h1, List.take_of_length_le (length_isEla c).le]
    show (c.types.map fun t => if isSEA t then (1 : ℤ) else 0).map numeral = _
    rw [List.map_map]
    exact List.map_congr_left fun t _ => numeral_flag t
  unfold constsOf classConsts infoOf
  dsimp only
  rw [h10, he, hn, h1, h2, h3, h4, h5, h6, h7]

/-! ## C75 -/

/-- C75: for every configuration, every choice of functions added by the user and every robot name, the generated texts are those of a class
`thunder_<name>` whose constants are exactly those of the configuration, in the order of the template; the source includes the header of the class
and that of the generated library; with bindings it defines the module `thunder_<name>_py`.  The header is inside an include guard exactly when the name
does not contain `THUNDERROBOT`. -/
theorem C75 [Fl] {y : Yaml} {c : Conf} (h : Describes y c) (hj : JointsOk c) {us : List UserFun} (hu : UserFuns c us) {name : String}
    {r : Robot} (e : robotFromFileWith us name (some y) true = .ok r) (py : Bool) :
    ∃ hd s, (∀ o, Instantiate (ch name) r py o ↔ o = .ret 1 (some hd) (some s)) ∧
      (∀ ks, Constants (textLines hd) ks ↔ ks = classConsts c name) ∧
      (Guarded (textLines hd) ↔ ¬ "THUNDERROBOT".toList <:+: name.toList) ∧
      "class thunder_".toList ++ name.toList ++ "{".toList ∈ textLines hd ∧
      (∃ mid, textLines s = includes ("thunder_".toList ++ name.toList ++ ".h".toList) :: includes (name.toList ++ "_gen.h".toList) :: mid) ∧
      (py = true → moduleHead ("thunder_".toList ++ name.toList ++ "_py".toList) ∈ textLines s) := by
  have hrn := robotName_of_with h e
  have hn : Plain name := plain_of_name hrn
  have hsp : ' ' ∉ ch name := fun hx => by rcases hrn.chars _ hx with h | h <;> revert h <;> decide
  obtain ⟨hb, hn', hfs, hreg⟩ := fromFileWith_ok (T := Plain) h hj.1 (typed_of hj) (userOk_of hu) Fn.plain_key (fun g hg => by
    obtain ⟨F, _, rfl⟩ := hg
    exact ⟨F.plain_name, F.plain_descr c.n⟩) e
  have hone : r.funs ≠ [] := by
    have : r.funs.has "M" = true := (hfs "M").2 (.inl (Fn.name_mem (f := .M).2 trivial))
    intro e0
    rw [e0] at this
    cases this
  have hi : InfoOk (infoOf r) :=
    ⟨repOk_plain.2 (hb.name ▸ hn), by show 0 < r.n; rw [hn']; exact hj.1, by show r.n ≤ r.isEla.length; rw [hn', hb.ela, length_isEla]⟩
  have hf : ∀ f ∈ reports r, FunOk f := fun f hf' => by
    obtain ⟨p, hp, rfl⟩ := List.mem_map.1 hf'
    obtain ⟨fa, A, d, -, -, -, b1, b2, -, t1, t2, t3⟩ := (hreg p.1 (SMap.has_iff.2 (List.mem_map.2 ⟨p, hp, rfl⟩))).2.report
    refine ⟨repOk_plain.2 t1, repOk_plain.2 (by rw [b1]; exact t2), fun a ha => repOk_plain.2 (t3 a ?_)⟩
    rw [← b2]; exact ha
  obtain ⟨hd, s, h1, -⟩ := instantiate_ok (dst := ch name) (r := r) (py := py) (repOk_plain.2 hn) hi hf fun _ => hone
  obtain ⟨⟨k1, k2, k3⟩, k4, k5⟩ := lines_ok (repOk_plain.2 hn) hsp hi hf (fun _ => hone) h1
  rw [constsOf_eq hb.name hb.ela (fromFileWith_dims h hj.1 (typed_of hj) e)] at k1
  refine ⟨hd, s, h1, fun ks => ⟨fun h' => constants_unique h' k1, fun h' => h' ▸ k1⟩, ?_, k3, k4, k5⟩
  rw [k2, ← patGuard_eq]

/-- The build file of the bindings: the module of the class is made of the two generated sources and linked. -/
theorem C75_cmake {name t' : List Char} (hn : '\n' ∉ name) (h : Replaced "robot".toList name cmakeFile t') :
    moduleLine ("thunder_".toList ++ name ++ "_py".toList) ["thunder_".toList ++ name ++ ".cpp".toList, name ++ "_gen.cpp".toList] ∈ textLines t' ∧
      linkLine ("thunder_".toList ++ name ++ "_py".toList) "yaml-cpp::yaml-cpp pybind11::module Eigen3::Eigen".toList ∈ textLines t' :=
  cmake_ok h hn

/-- C75 for the generator as shipped. -/
theorem C75_library [Fl] {y : Yaml} {c : Conf} (h : Describes y c) (hj : JointsOk c) {name : String} (hnm : RobotName name) (py : Bool) :
    ∃ r hd s, robotFromFile name (some y) true = .ok r ∧ (∀ o, Instantiate (ch name) r py o ↔ o = .ret 1 (some hd) (some s)) ∧
      (∀ ks, Constants (textLines hd) ks ↔ ks = classConsts c name) ∧ (Guarded (textLines hd) ↔ ¬ "THUNDERROBOT".toList <:+: name.toList) := by
  obtain ⟨r, e, -⟩ := fromFile_ok h hj.1 (typed_of hj) hnm
  obtain ⟨hd, s, h1, h2, h3, -⟩ := C75 h hj (us := []) { name := by simp, args := by simp, text := by simp } e py
  exact ⟨r, hd, s, e, h1, h2, h3⟩

end

namespace Ex

open Spec Robot Text

/-- The hypotheses are met by the robot with an elastic joint. -/
example : UserFuns mixed [exampleFun fun _ => 1] ∧ JointsOk mixed ∧ Describes (fileOf mixed) mixed ∧ RobotName "franka" :=
  ⟨userFuns_example _ _, joints_mixed, describes_mixed, robotName_of_check (f := "M") (by decide +kernel)⟩

/-- The guard holds for `franka`, and there is a name for which it does not. -/
example : ¬ "THUNDERROBOT".toList <:+: "franka".toList := by
  have : occurs "THUNDERROBOT".toList "franka".toList = false := by decide +kernel
  exact not_occurs this

/-- C75, the witness: the header generated for the robot `myTHUNDERROBOT` has no include guard. -/
theorem C75_unguarded [Fl] (py : Bool) : RobotName "myTHUNDERROBOT" ∧ ∃ r hd s, robotFromFile "myTHUNDERROBOT" (some (fileOf mixed)) true = .ok r ∧
    (∀ o, Instantiate (ch "myTHUNDERROBOT") r py o ↔ o = .ret 1 (some hd) (some s)) ∧ ¬ Guarded (textLines hd) := by
  have hn : RobotName "myTHUNDERROBOT" := robotName_of_check (f := "M") (by decide +kernel)
  obtain ⟨r, hd, s, e, h1, -, h3⟩ := C75_library describes_mixed joints_mixed hn py
  refine ⟨hn, r, hd, s, e, h1, fun h => h3.1 h ?_⟩
  exact occurs_iff.1 (by decide +kernel)

/-- There is a build file as required. -/
example : ∃ t', Replaced "robot".toList "franka".toList cmakeFile t' := ⟨_, repl_spec (by decide)⟩

end Ex

end Thunder
