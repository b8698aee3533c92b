import Verif.Lemmas.Generate
import Verif.Props.Pipeline

/-!
# The generated class: C46
-/

open scoped Classical

namespace Thunder

noncomputable section

open Spec Act Robot Text

/-! ## The texts for any robot -/

/-- What is written for any robot, whatever its history: the header declares and the source defines one getter for each entry of the table of
CasADi functions, in the same order and with the same type; the arguments passed are those stored in `fun_args`. -/
theorem C46_texts {r : Robot} {name : String} (hn : Plain name) (hr : Plain r.name) (hj : 0 < r.n) (he : r.n ≤ r.isEla.length) {py : Bool}
    (hp : py = true → r.funs ≠ [])
    (hf : ∀ p ∈ r.funs, Plain p.1 ∧ Plain (r.funDescr.get p.1 "") ∧ ∀ a ∈ r.funArgs.get p.1 [], Plain a) :
    ∃ h s, (∀ o, Instantiate (ch name) r py o ↔ o = .ret 1 (some h) (some s)) ∧
      ∃ ds : List (Getter × List (List Char)), Declared (textLines h) (ds.map Prod.fst) ∧ Defined name.toList (textLines s) ds ∧
        List.Forall₂ (fun p d => d.1 = ⟨(r.mod p.1).rows, (r.mod p.1).cols, p.1.toList⟩ ∧
          Body d.2 d.1 (r.name.toList ++ "_".toList ++ p.1.toList ++ "_fun".toList) ((r.funArgs.get p.1 []).map String.toList)) r.funs ds := by
  obtain ⟨h, s, h1, h2, h3, -⟩ := instantiate_ok (dst := ch name) (r := r) (py := py) (repOk_plain.2 hn) ⟨repOk_plain.2 hr, hj, he⟩ (fun f hf' => by
    obtain ⟨p, hp, rfl⟩ := List.mem_map.1 hf'
    obtain ⟨a, b, d⟩ := hf p hp
    exact ⟨repOk_plain.2 a, repOk_plain.2 b, fun x hx => repOk_plain.2 (d x hx)⟩) hp
  refine ⟨h, s, h1, (reports r).map (defOf (ch r.name)), ?_, h3, ?_⟩
  · rw [List.map_map]; exact h2
  · rw [List.forall₂_map_right_iff, reports, List.forall₂_map_right_iff, List.forall₂_same]
    intro p _
    exact ⟨rfl, body_defOf (ch r.name) ⟨p.1, r.funDescr.get p.1 "", r.funArgs.get p.1 [], (r.mod p.1).rows, (r.mod p.1).cols⟩⟩

theorem plain_of_name {s : String} (h : RobotName s) : Plain s :=
  ⟨fun hx => by rcases h.chars _ hx with h | h <;> revert h <;> decide, fun hx => by rcases h.chars _ hx with h | h <;> revert h <;> decide⟩

/-! ## C46 -/

/-- C46: for every configuration, every choice of functions added by the user and every robot name, if `robot_from_file` succeeds then the
instantiation of the template has a single outcome: the header declares and the source defines exactly one getter for each function of the library
and of the user, with the same return type in both and of the size of the output of the CasADi function, and the data passed to the C function are
those of the arguments, in the order of the inputs of the CasADi function. -/
theorem C46 [Fl] {y : Yaml} {c : Conf} (h : Describes y c) (hj : JointsOk c) {us : List UserFun} (hu : UserFuns c us) {name : String}
    {r : Robot} (e : robotFromFileWith us name (some y) true = .ok r) (py : Bool) :
    ∃ hd s, (∀ o, Instantiate (ch name) r py o ↔ o = .ret 1 (some hd) (some s)) ∧ ∃ fs : List String, fs.Nodup ∧
      (∀ f, f ∈ fs ↔ f ∈ library c ∨ f ∈ us.map UserFun.name) ∧ ClassOf r name.toList hd s fs ∧
      (py = true → ∃ A B ls l, textLines s = A ++ (ls ++ (l ++ [';']) :: B) ∧ List.Forall₂ (Binds r name.toList) fs (ls ++ [l])) := by
  have hn : Plain name := plain_of_name (robotName_of_with h e)
  obtain ⟨hb, hrn, hfs, hreg⟩ := fromFileWith_ok (T := Plain) h hj.1 (typed_of hj) (userOk_of hu) Fn.plain_key (fun g hg => by
    obtain ⟨F, _, rfl⟩ := hg
    exact ⟨F.plain_name, F.plain_descr c.n⟩) e
  have hmem : ∀ p ∈ r.funs, r.funs.has p.1 = true := fun p hp => SMap.has_iff.2 (List.mem_map.2 ⟨p, hp, rfl⟩)
  have hone : r.funs ≠ [] := by
    have : r.funs.has "M" = true := (hfs "M").2 (.inl (Fn.name_mem (f := .M).2 trivial))
    intro e0
    rw [e0] at this
    cases this
  obtain ⟨hd, s, h1, h2, h3, h4⟩ := instantiate_ok (dst := ch name) (r := r) (py := py) (repOk_plain.2 hn)
    ⟨repOk_plain.2 (hb.name ▸ hn), by show 0 < r.n; rw [hrn]; exact hj.1, by show r.n ≤ r.isEla.length; rw [hrn, hb.ela, length_isEla]⟩ (fun f hf' => by
      obtain ⟨p, hp, rfl⟩ := List.mem_map.1 hf'
      obtain ⟨fa, A, d, -, -, -, b1, b2, -, t1, t2, t3⟩ := (hreg p.1 (hmem p hp)).2.report
      refine ⟨repOk_plain.2 t1, repOk_plain.2 (by rw [b1]; exact t2), fun a ha => repOk_plain.2 (t3 a ?_)⟩
      rw [← b2]; exact ha) (fun _ => hone)
  refine ⟨hd, s, h1, r.funs.map Prod.fst, hb.sorted.nodup, fun f => ?_, ⟨(reports r).map (defOf (ch r.name)), ?_, h3, ?_⟩, fun hpy => ?_⟩
  · rw [← SMap.has_iff, hfs]
  · rw [List.map_map]; exact h2
  · rw [List.forall₂_map_right_iff, reports, List.forall₂_map_right_iff, List.forall₂_map_left_iff, List.forall₂_same]
    intro p hp
    obtain ⟨⟨fa, vs, A, b1, b2, b3, -, -, -, b7⟩, -⟩ := hreg p.1 (hmem p hp)
    have e1 : r.mod p.1 = A := by unfold Robot.mod SMap.get; rw [b3]; rfl
    have e2 : r.funArgs.get p.1 [] = fa := by unfold SMap.get; rw [b1]; rfl
    refine ⟨fa, vs, A, b1, b2, ?_, ?_, b7⟩
    · rw [← e1]; rfl
    · have := body_defOf (ch r.name) ⟨p.1, r.funDescr.get p.1 "", r.funArgs.get p.1 [], (r.mod p.1).rows, (r.mod p.1).cols⟩
      rw [hb.name, e2] at this
      rw [hb.name, e2]
      exact this
  · obtain ⟨A, B, f, g, e1, e2⟩ := h4 hpy
    refine ⟨A, B, _, _, e2, ?_⟩
    have e3 : f.map (bindOf (ch name)) ++ [bindOf (ch name) g] = (reports r).map (bindOf (ch name)) := by rw [e1, List.map_append]; rfl
    rw [e3, List.forall₂_map_right_iff, reports, List.forall₂_map_right_iff, List.forall₂_map_left_iff, List.forall₂_same]
    intro p hp
    obtain ⟨fa, A, d, -, -, b3, b1, -⟩ := (hreg p.1 (hmem p hp)).2.report
    refine ⟨['\t', '\t'], d, by intro x hx; simp at hx; exact .inr hx, b3, ?_⟩
    have h0 : ch "\t\t.def(\"get_" = ['\t', '\t'] ++ ".def(\"get_".toList := by decide +kernel
    unfold bindOf
    rw [h0, b1]

/-- C46 for the generator as shipped, without functions of the user: `robot_from_file` succeeds for every well-formed configuration. -/
theorem C46_library [Fl] {y : Yaml} {c : Conf} (h : Describes y c) (hj : JointsOk c) {name : String} (hnm : RobotName name) (py : Bool) :
    ∃ r hd s, robotFromFile name (some y) true = .ok r ∧ (∀ o, Instantiate (ch name) r py o ↔ o = .ret 1 (some hd) (some s)) ∧
      ∃ fs : List String, fs.Nodup ∧ (∀ f, f ∈ fs ↔ f ∈ library c) ∧ ClassOf r name.toList hd s fs := by
  obtain ⟨r, e, -⟩ := fromFile_ok h hj.1 (typed_of hj) hnm
  obtain ⟨hd, s, h1, fs, h2, h3, h4, -⟩ := C46 h hj (us := [])
    { name := by simp, args := by simp, text := by simp } e py
  exact ⟨r, hd, s, e, h1, fs, h2, fun f => by rw [h3]; simp, h4⟩

/-! ## The example of a user function -/

/-- No function of the library has a name that begins with `q`. -/
theorem library_ne {c : Conf} {f : String} (h : f.toList.head? = some 'q') : f ∉ library c := by
  intro hf
  obtain ⟨F, -, rfl⟩ := Fn.mem_library.1 hf
  have hs : ∀ s : Stem, s.str.toList ≠ [] ∧ s.str.toList.head? ≠ some 'q' := by intro s; cases s <;> decide
  obtain ⟨h1, h2⟩ := hs F.stem
  unfold Fn.name at h
  rw [String.toList_append, List.head?_append_of_ne_nil _ h1] at h
  exact h2 h

/-- The example is a proper function of the user. -/
theorem userFuns_example (c : Conf) (q0 : ℕ → ℝ) : UserFuns c [exampleFun q0] where
  name := by
    intro u hu
    obtain rfl := List.mem_singleton.1 hu
    show "q0_dist" ∉ motionNames ++ parNames
    decide +kernel
  args := by
    intro u hu a ha
    obtain rfl := List.mem_singleton.1 hu
    have h1 : ∀ a ∈ ["q", "q0"], a.toList.head? = some 'q' ∧ a ∉ ["q0_dist"] := by decide +kernel
    exact ⟨library_ne (h1 a ha).1, (h1 a ha).2⟩
  text := by
    intro u hu
    obtain rfl := List.mem_singleton.1 hu
    have h1 : ∀ a ∈ ["q0_dist", "distance from q0", "q", "q0"], '\n' ∉ a.toList ∧ '#' ∉ a.toList := by decide +kernel
    exact ⟨h1 "q0_dist" (by decide +kernel), h1 "distance from q0" (by decide +kernel), fun a ha => h1 a (List.mem_cons_of_mem _ (List.mem_cons_of_mem _ ha))⟩

theorem fv_sumSquares {l : List Expr} {v : Var} (h : v ∈ (sumSquares l).fv) : ∃ e ∈ l, v ∈ e.fv := by
  induction l with
  | nil => cases h
  | cons e l ih =>
    rcases h with (h | h) | h
    · exact ⟨e, List.mem_cons_self, h⟩
    · exact ⟨e, List.mem_cons_self, h⟩
    · obtain ⟨e', h1, h2⟩ := ih h
      exact ⟨e', List.mem_cons_of_mem _ h1, h2⟩

/-- The example of `userDefined.cpp` (its registration is in the comments) is accepted for every well-formed configuration. -/
theorem example_ok [Fl] {y : Yaml} {c : Conf} (h : Describes y c) (hj : JointsOk c) (q0 : ℕ → ℝ) {name : String} (hnm : RobotName name) :
    ∃ r, robotFromFileWith [exampleFun q0] name (some y) true = .ok r ∧ r.funArgs.find "q0_dist" = some ["q", "q0"] ∧
      ∃ vs A, r.funs.find "q0_dist" = some ⟨vs, A⟩ ∧ A.rows = 1 ∧ A.cols = 1 := by
  obtain ⟨r₃, s₃, b₃, ef⟩ := fromFileWith_eq h hj.1 (typed_of hj) [exampleFun q0] hnm
  have hq0 : ∀ k : Key, "q0" ≠ k.str := fun k e => absurd (names_iff.2 ⟨k, e⟩) (by decide +kernel)
  have hno : r₃.model.has "q0" = false := by
    rw [← Bool.not_eq_true]
    intro hh
    rcases s₃.names _ hh with ⟨k, hk⟩ | ⟨g, ⟨F, hv, rfl⟩, e⟩ | he
    · exact hq0 k hk
    · exact library_ne (c := c) (f := "q0") (by decide +kernel) (e ▸ Fn.mem_library_of hv)
    · exact absurd he (by decide +kernel)
  have hpre : Pre c (fun _ => True) r₃ := run_pre s₃ (fun g hg => ⟨(Fn.good_lib hj.1 (typed_of hj) g hg).fresh, trivial, trivial⟩) (fun _ => trivial) b₃.args
  have hq : r₃.mod "q" = Key.q.mat c := by
    unfold Robot.mod SMap.get
    rw [show r₃.model.find "q" = _ from hpre.here .q trivial]
    rfl
  have hfq : r₃.flags "q" = Key.q.flags c := hpre.flags .q
  obtain ⟨r₄, e₄, a₄⟩ := addFunction_ok (r := r₃) (f := (exampleFun q0).name) (expr := (exampleFun q0).expr r₃) (fargs := ["q", "q0"])
    (descr := (exampleFun q0).descr) (ow := true) (vs := [Key.q.vars c, []])
    (check_of_good s₃.named (by
      show FunName "q0_dist"
      exact ⟨by decide +kernel, by decide +kernel, by decide +kernel, by decide +kernel, by decide +kernel⟩)) (.inl rfl) (by
      refine .cons ?_ (.cons ?_ .nil)
      · rw [hq, hfq]; exact Key.q.selected
      · have hm : r₃.mod "q0" = SX.zeros 0 0 := by
          unfold Robot.mod SMap.get
          have hnone : r₃.model.find "q0" = none := by
            cases hm : r₃.model.find "q0" with
            | none => rfl
            | some A => unfold SMap.has at hno; rw [hm] at hno; cases hno
          rw [hnone]
          rfl
        rw [hm]
        exact ⟨Nat.zero_le _, rfl⟩) (by
      have : "q0_dist" ∉ ["q", "q0"] := by decide +kernel
      exact this) (by simpa using Key.q.nodup_vars) (by
      intro i hi j hj v hv
      have h1 : ∀ e ∈ (List.range r₃.n).map fun i => Expr.sub ((r₃.mod "q").e i 0) (.const (q0 i)), ∀ v ∈ e.fv, v ∈ Key.q.vars c := by
        intro e he v hv
        obtain ⟨i, hi, rfl⟩ := List.mem_map.1 he
        rw [hq] at hv
        rcases hv with hv | hv
        · have hin : i < c.n := by rw [← s₃.n]; exact List.mem_range.1 hi
          rw [Key.mat_var rfl, SX.sym] at hv
          dsimp only at hv
          rw [if_pos ⟨hin, rfl⟩] at hv
          obtain rfl : v = _ := hv
          exact List.mem_map.2 ⟨i, List.mem_filter.2 ⟨List.mem_range.2 hin, by rw [Key.flag_var rfl]; rfl⟩, rfl⟩
        · cases hv
      have h2 : (exampleFun q0).expr r₃ = SX.ofList [.sqrt (sumSquares ((List.range r₃.n).map fun i => .sub ((r₃.mod "q").e i 0) (.const (q0 i))))] := rfl
      rw [h2] at hi hv
      obtain rfl : i = 0 := Nat.lt_one_iff.1 hi
      obtain rfl : j = 0 := Nat.lt_one_iff.1 hj
      obtain ⟨e, he, hv⟩ := fv_sumSquares (v := v) hv
      simpa using h1 e he v hv)
  have hreg : register ((exampleFun q0).reg r₃) r₃ = .ok () r₄ := by
    unfold register
    rw [bind_ok (read_run _)]
    have hok : ((exampleFun q0).reg r₃).expr.ok := trivial
    rw [if_pos hok, bind_ok (ofExc_some _ _)]
    exact bind_ok e₄
  obtain ⟨p₄, -, -, f₄⟩ := register_user hpre (g := (exampleFun q0).reg r₃) (fun k e => absurd (names_iff.2 ⟨k, e⟩) (by
      show "q0_dist" ∉ motionNames ++ parNames
      decide +kernel)) (by
      rw [← Bool.not_eq_true, SMap.has_iff]
      intro hm
      obtain ⟨p, hp, e⟩ := List.mem_map.1 hm
      rw [s₃.symb] at hp
      obtain ⟨k, _, rfl⟩ := key_of_mem_symb hp
      exact absurd (names_iff.2 ⟨k, e.symm⟩) (by
        show "q0_dist" ∉ motionNames ++ parNames
        decide +kernel)) (fun a ha => by
      have h1 : ∀ a ∈ ["q", "q0"], a.toList.head? = some 'q' ∧ a ≠ "q0_dist" := by decide +kernel
      refine ⟨(h1 a ha).2, ?_, trivial⟩
      rw [← Bool.not_eq_true]
      intro hh
      obtain ⟨g, ⟨F, hv, rfl⟩, e⟩ := s₃.only a (b₃.args a hh)
      exact library_ne (c := c) (h1 a ha).1 (e ▸ Fn.mem_library_of hv)) trivial trivial hreg
  obtain ⟨r₅, e₅, x₅, -⟩ := update_user p₄
  have hall : (computeUser [exampleFun q0] >>= fun _ => updateSymb) r₃ = .ok () r₅ := by
    refine (bind_ok (a := ()) (s' := r₄) ?_).trans e₅
    unfold computeUser
    rw [bind_ok (read_run _), bind_ok hreg]
    rfl
  rw [hall] at ef
  refine ⟨r₅, ef, ?_, [Key.q.vars c, []], (exampleFun q0).expr r₃, ?_, rfl, rfl⟩
  · rw [x₅]
    exact f₄
  · rw [x₅, a₄.eq]
    exact SMap.find_put_same _ _ _

/-- `b` follows `a` somewhere. -/
def hasPair (a b : Char) : List Char → Bool
  | x :: y :: l => (x == a && y == b) || hasPair a b (y :: l)
  | _ => false

theorem hasPair_of_infix {a b : Char} : ∀ {l : List Char}, [a, b] <:+: l → hasPair a b l = true
  | [], h => by simp at h
  | [x], h => by have := h.length_le; simp at this
  | x :: y :: l, h => by
    rcases List.infix_cons_iff.1 h with h | h
    · obtain ⟨t, e⟩ := h
      simp only [List.cons_append, List.nil_append, List.cons.injEq] at e
      simp [hasPair, ← e.1, ← e.2.1]
    · simp [hasPair, hasPair_of_infix h]

/-- The example gives a class that does not compile: for every well-formed configuration its getter passes `q0.data()`, but the template has no
member `q0`. -/
theorem C46_example [Fl] {y : Yaml} {c : Conf} (h : Describes y c) (hj : JointsOk c) (q0 : ℕ → ℝ) {name : String} (hnm : RobotName name) (py : Bool) :
    ∃ r hd s, robotFromFileWith [exampleFun q0] name (some y) true = .ok r ∧
      (∀ o, Instantiate (ch name) r py o ↔ o = .ret 1 (some hd) (some s)) ∧
      (∃ ds b, Defined name.toList (textLines s) ds ∧ (⟨1, 1, "q0_dist".toList⟩, b) ∈ ds ∧
        Body b ⟨1, 1, "q0_dist".toList⟩ (name.toList ++ "_".toList ++ "q0_dist".toList ++ "_fun".toList) ["q".toList, "q0".toList]) ∧
      ∀ l ∈ headerLines, ¬ "q0".toList <:+: l.toList := by
  obtain ⟨r, e, hf, vs', A', hf', n1, n2⟩ := example_ok h hj q0 hnm
  obtain ⟨hd, s, h1, fs, h2, h3, ⟨ds, -, d2, d3⟩, -⟩ := C46 h hj (userFuns_example c q0) e py
  refine ⟨r, hd, s, e, h1, ?_, fun l hl hi => ?_⟩
  swap
  · have h0 : headerChars.all (fun l => !hasPair 'q' '0' l) = true := by decide +kernel
    have := List.all_eq_true.1 h0 l.toList (headerLines_eq ▸ List.mem_map.2 ⟨l, hl, rfl⟩)
    rw [hasPair_of_infix (show ['q', '0'] <:+: l.toList from hi)] at this
    cases this
  obtain ⟨i, hi, e1⟩ := List.mem_iff_getElem.1 ((h3 "q0_dist").2 (.inr List.mem_cons_self))
  have hi' : i < ds.length := d3.length_eq ▸ hi
  obtain ⟨fa, vs, A, a1, a2, a3, a4, -⟩ := (List.forall₂_iff_get.1 d3).2 i hi hi'
  have e2 : fs.get ⟨i, hi⟩ = "q0_dist" := e1
  rw [e2] at a1 a2 a3 a4
  rw [hf] at a1
  rw [hf'] at a2
  obtain ⟨rfl, rfl⟩ : vs' = vs ∧ A' = A := by simpa using a2
  obtain rfl := Option.some.inj a1
  rw [n1, n2] at a3
  rw [a3] at a4
  refine ⟨ds, (ds.get ⟨i, hi'⟩).2, d2, ?_, a4⟩
  have : ds.get ⟨i, hi'⟩ ∈ ds := List.get_mem _ _
  rwa [show ds.get ⟨i, hi'⟩ = (_, (ds.get ⟨i, hi'⟩).2) from Prod.ext a3 rfl] at this

end

namespace Ex

open Spec Robot

/-- The example has all that the theorems ask for: a robot with an elastic joint and the function of the user. -/
example : UserFuns mixed [exampleFun fun _ => 1] ∧ JointsOk mixed ∧ Describes (fileOf mixed) mixed ∧ RobotName "franka" :=
  ⟨userFuns_example _ _, joints_mixed, describes_mixed, robotName_of_check (f := "M") (by decide +kernel)⟩

end Ex

end Thunder
