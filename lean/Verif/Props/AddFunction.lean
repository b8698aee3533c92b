import Verif.Lemmas.AddFunction
import Verif.Props.Pipeline

/-!
# Adding a function to a robot read from a file: C44
-/

open scoped Classical

namespace Thunder

open Spec Act Robot

noncomputable section

/-- C44, exact condition, for a robot returned by `robot_from_file`: every expression of the symbols of the vectors `fargs` can be added and is then
evaluated at their stored values exactly when in each of these vectors the symbolic entries come before the numeric ones.  (`add_function` reads the
flags of the full vector while going through the vector that `update_symb_parameters` has reduced to its symbolic entries.) -/
theorem C44_iff [Fl] {y : Yaml} {c : Conf} (h : Describes y c) (hj : JointsOk c) {name : String} {r : Robot}
    (e : robotFromFile name (some y) true = .ok r) {f : String} (hf : FunName f) {fargs : List String} (hd : fargs.Nodup)
    (ha : ∀ a ∈ fargs, r.symb.has a = true) (hs : f ∉ fargs) : Usable r f fargs ↔ ∀ a ∈ fargs, SymbolicFirst (r.flags a) := by
  have hnm := robotName_of_ok h e
  have hname : r.name = name := (fromFileWith_ok (T := fun _ => True) (us := []) h hj.1 (typed_of hj)
    ⟨(fun _ h => nomatch h), (fun _ h => nomatch h), (fun _ h => nomatch h)⟩ (fun _ => trivial) (fun _ _ => ⟨trivial, trivial⟩) e).1.name
  obtain ⟨r₀, e₀, D⟩ := fromFile_ok h hj.1 (typed_of hj) hnm
  obtain rfl : r₀ = r := by rw [e₀] at e; injection e
  obtain ⟨ks, rfl, hk⟩ := D.keys ha
  have hkn : ks.Nodup := hd.of_map
  have hsel := selected_keys hk
  constructor
  · intro hu a haa
    obtain ⟨k, hkk, rfl⟩ := List.mem_map.1 haa
    unfold SymbolicFirst
    rw [(hk k hkk).1, Key.prefix_iff]
    intro i hi
    by_contra h0
    have hin : ∀ {l : List Var} (h : i < l.length), (SX.ofList (l.map .var)).e i 0 = .var l[i] := fun h => by
      simp [SX.ofList, List.getD_eq_getElem?_getD, h]
    obtain ⟨r', e', -⟩ := hu (SX.ofList [.var (k.vars c)[i]]) "" (by
      intro i' hi' j' hj' v hv
      obtain rfl : i' = 0 := by simp [SX.ofList] at hi'; omega
      obtain rfl : j' = 0 := by simp [SX.ofList] at hj'; omega
      have hv : v = (k.vars c)[i] := by simpa [SX.ofList, Expr.fv] using hv
      refine ⟨k.str, haa, i, ?_, ?_⟩
      · rw [(hk k hkk).2]; simpa [SX.ofList] using hi
      · rw [(hk k hkk).2, hin hi, hv])
    obtain ⟨r'', e''⟩ := addFunction_free (descr := "") hsel hs (expr := SX.ofList [.var (k.vars c)[i]]) (i := 0) (j := 0) (v := (k.vars c)[i])
      (by simp [SX.ofList]) (by simp [SX.ofList]) (by simp [SX.ofList]) (by
        intro hm
        obtain ⟨l, hl, hm⟩ := List.mem_flatten.1 hm
        obtain ⟨k', hk', rfl⟩ := List.mem_map.1 hl
        have hkk' : k' = k := Key.sym_inj (by
          rw [← (Key.mem_vars.1 (picked_sub hm)).1, (Key.mem_vars.1 (List.getElem_mem hi)).1])
        subst hkk'
        exact not_picked k'.nodup_vars hi h0 hm)
    rw [e''] at e'
    cases e'
  · intro hp expr descr hv
    have hpk : ∀ k ∈ ks, picked (k.flags c) (k.vars c) = k.vars c := by
      intro k hkk
      have := hp k.str (List.mem_map_of_mem hkk)
      unfold SymbolicFirst at this
      rw [(hk k hkk).1, Key.prefix_iff] at this
      exact picked_all this
    rw [List.map_congr_left hpk] at hsel
    obtain ⟨r', e', -, -, he⟩ := C44_add_partial r₀ f expr (ks.map Key.str) descr true (ks.map (Key.vars c)) (by rw [hname]; exact hnm) hf (.inl rfl) hsel hs
      (nodup_flatten_vars hkn) (fun i hi j hj v hv' => by
        obtain ⟨a, haa, i', hi', e'⟩ := hv i hi j hj v hv'
        obtain ⟨k, hkk, rfl⟩ := List.mem_map.1 haa
        rw [(hk k hkk).2] at hi' e'
        have hi' : i' < (k.vars c).length := by simpa [SX.ofList] using hi'
        refine mem_flatten_vars.2 ⟨k, hkk, ?_⟩
        have : (k.vars c)[i'] = v := by simpa [SX.ofList, List.getD_eq_getElem?_getD, hi'] using e'
        rw [← this]
        exact List.getElem_mem hi')
    refine ⟨r', e', fun args ρ hargs => he args ρ ?_⟩
    rw [List.forall₂_map_left_iff, List.forall₂_map_right_iff, List.forall₂_same]
    intro k hkk
    rw [hargs k.str (List.mem_map_of_mem hkk), (hk k hkk).2]
    refine List.ext_getElem (by simp [SX.ofList]) fun i h1 h2 => ?_
    have h2 : i < (k.vars c).length := by simpa using h2
    simp [SX.ofList, List.getD_eq_getElem?_getD, h2]

namespace Ex

/-- The hypotheses can be met with both outcomes: in the robot of `mixed` the gravity vector has only its third entry symbolic, the vector `q` is
entirely symbolic. -/
example [Fl] : ∃ r, robotFromFile "robot" (some (fileOf mixed)) true = .ok r ∧ r.symb.has "par_gravity" = true ∧ r.symb.has "q" = true ∧
    ¬ Usable r "weight" ["q", "par_gravity"] ∧ Usable r "weight" ["q"] := by
  have hnm : RobotName "robot" := robotName_of_check (f := "M") (by decide +kernel)
  have hfn : FunName "weight" := ⟨by decide +kernel, by decide +kernel, by decide +kernel, by decide +kernel, by decide +kernel⟩
  obtain ⟨r, e, D⟩ := fromFile_ok describes_mixed joints_mixed.1 (typed_of joints_mixed) hnm
  have hf : ∀ k : Key, k.listed mixed → r.symb.find k.str = some (k.flags mixed) := fun k hk => by rw [D.symb, find_symb, if_pos hk]
  have hg := hf .grav trivial
  have hq := hf .q trivial
  have hg' : r.symb.has "par_gravity" = true := by unfold SMap.has; rw [show r.symb.find "par_gravity" = _ from hg]; rfl
  have hq' : r.symb.has "q" = true := by unfold SMap.has; rw [show r.symb.find "q" = _ from hq]; rfl
  refine ⟨r, e, hg', hq', fun hu => ?_, ?_⟩
  · have := (C44_iff describes_mixed joints_mixed e hfn (fargs := ["q", "par_gravity"]) (by decide) (by simp [hg', hq']) (by decide)).1 hu "par_gravity" (by simp)
    have hfl : r.flags "par_gravity" = [0, 0, 1] := by
      unfold Robot.flags SMap.get
      rw [show r.symb.find "par_gravity" = _ from hg]
      rfl
    rw [hfl] at this
    exact this 0 2 (by decide) (by decide) (by decide) rfl
  · refine (C44_iff describes_mixed joints_mixed e hfn (fargs := ["q"]) (by decide) (by simp [hq']) (by decide)).2 fun a ha => ?_
    obtain rfl : a = "q" := by simpa using ha
    have hfl : r.flags "q" = Key.flags mixed .q := by
      unfold Robot.flags SMap.get
      rw [show r.symb.find "q" = _ from hq]
      rfl
    rw [hfl]
    intro i j hij hj _
    rw [Key.getD_flags (by simp [Key.flags, flagsL] at hj; omega)]
    exact one_ne_zero

end Ex

end

end Thunder
