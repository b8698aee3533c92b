import Verif.Lemmas.WrapperFile
import Mathlib.Tactic.Positivity

/-!
# C40, C41: saving and loading inertial parameters with the wrapper class
-/

namespace Thunder.Wrap

/-- **C40**.  Take two objects of the same robot in any reachable states.  Loading with `load_par_REG` the file written by `save_par_REG` of the
first into the second gives `par_REG` of the first; `par_DYN` is its image, that is, if the saved values are numbers with non-zero masses, then
`par_DYN` holds numbers and `par_REG` is the REG image of `par_DYN`; nothing else changes. -/
theorem C40 (c : Cfg) (ks1 ks2 : List Call) {s1 s2 : Obj} (e1 : runAll c ks1 (init c) = some s1) (e2 : runAll c ks2 (init c) = some s2) :
    ∃ s, (Call.loadREG (some (saveREG c s1)) true).run c s2 = some s ∧ s.vec .REG = s1.vec .REG ∧
      (∀ p, s1.vec .REG = vecN (10 * c.n) p → (∀ i < c.n, p (10 * i) ≠ 0) →
        (∃ d, s.vec .DYN = vecN (10 * c.n) d) ∧ Spec.Consistent c.n (s.vec .DYN) (s.vec .REG)) ∧
      (∀ f, f ≠ .REG → f ≠ .DYN → s.vec f = s2.vec f) ∧ s.symb = s2.symb := by
  have h1 := sized_runAll ks1 (sized_init c) e1
  have h2 := sized_runAll ks2 (sized_init c) e2
  have hl1 : (s1.vec .REG).length = 10 * c.n := h1 .REG id
  have hl2 : (s2.vec .REG).length = 10 * c.n := h2 .REG id
  obtain ⟨dyn, hfile, hdef, hitems⟩ := inertialFile_eq c "m_CoM_" (s1.vec .REG) (s1.vec .Dl)
  have hget : (saveREG c s1).getM "dynamics" = some dyn := by rw [saveREG, hfile]; simp [Yaml.getM, Yaml.lookup]
  have hread : (dyn.items.take (c.n - 0)).mapM (readLink "m_CoM_") =
      some ((List.range c.n).map fun i => (List.range 10).map fun k => (s1.vec .REG).getD (10 * i + k) none) := by
    rw [List.take_of_length_le (by rw [hitems]; simp), hitems, List.mapM_map]
    refine mapM_eq_map fun i _ => ?_
    obtain ⟨inertial, fr, hi, _, hr, _⟩ := read_linkNode (Or.inl rfl : "m_CoM_" = "m_CoM_" ∨ _) (fun k => (s1.vec .REG).getD (10 * i + k) none)
      ((List.range c.dlOrd).map fun j => (s1.vec .Dl).getD (c.dlOrd * i + j) none)
    simp only [Function.comp, readLink, Option.bind_some, hi, hr]
  have hloop := regLoop_ok dyn.items 0 s2 _ h2 (Nat.zero_le _) hread
  rw [flatten_pieces hl1, Nat.mul_zero, splice_full (by rw [hl1, hl2])] at hloop
  have hs3 : Sized c (s2.set .REG (s1.vec .REG)) := h2.set' (by rw [hl1, hl2])
  refine ⟨(s2.set .REG (s1.vec .REG)).set .DYN (dynOfRegW c.n (s1.vec .REG)), ?_, ?_, ?_, ?_, rfl⟩
  · simp only [Call.run, loadREG, yaml, hget, hdef, if_true, hloop, Out.bind, updateDYN_eq hs3, set_vec_same]
    rfl
  · rw [set_vec_ne _ _ (by decide), set_vec_same]
  · intro p hp hm
    rw [set_vec_same, set_vec_ne _ _ (by decide), set_vec_same, hp]
    refine ⟨⟨dynPar p, by rw [dynOfRegW_eq, dynOfReg_vecN hm]⟩, ?_⟩
    exact consistent_of_eq (length_dynOfRegW _ _) (reg_dyn_of_realMass ⟨p, rfl, hm⟩).symm
  · intro f h1 h2
    rw [set_vec_ne _ _ h2, set_vec_ne _ _ h1]

/-- **C41**.  Take two objects of the same robot in any reachable states.  Loading with `load_conf` the file written by `save_par_DYN` of the first
into the second gives `par_DYN` and `par_Dl` of the first; `par_REG` becomes the REG image; nothing else (in particular no kinematic parameter)
changes. -/
theorem C41 (c : Cfg) (ks1 ks2 : List Call) {s1 s2 : Obj} (e1 : runAll c ks1 (init c) = some s1) (e2 : runAll c ks2 (init c) = some s2) :
    ∃ s, (Call.loadConf (some (saveDYN c s1)) true).run c s2 = some s ∧ s.vec .DYN = s1.vec .DYN ∧ s.vec .Dl = s1.vec .Dl ∧
      Spec.Consistent c.n (s.vec .DYN) (s.vec .REG) ∧
      (∀ f, f ≠ .REG → f ≠ .DYN → f ≠ .Dl → s.vec f = s2.vec f) ∧ s.symb = s2.symb := by
  have h1 := sized_runAll ks1 (sized_init c) e1
  have h2 := sized_runAll ks2 (sized_init c) e2
  have hl1 : (s1.vec .DYN).length = 10 * c.n := h1 .DYN id
  have hl2 : (s2.vec .DYN).length = 10 * c.n := h2 .DYN id
  have hd1 : (s1.vec .Dl).length = c.dlOrd * c.n := h1 .Dl id
  have hd2 : (s2.vec .Dl).length = c.dlOrd * c.n := h2 .Dl id
  obtain ⟨dyn, hfile, hdef, hitems⟩ := inertialFile_eq c "CoM_" (s1.vec .DYN) (s1.vec .Dl)
  have hread : (dyn.items.take (c.n - 0)).mapM readDynLink =
      some ((List.range c.n).map fun i => ((List.range 10).map fun k => (s1.vec .DYN).getD (10 * i + k) none,
        some ((List.range c.dlOrd).map fun j => (s1.vec .Dl).getD (c.dlOrd * i + j) none))) := by
    rw [List.take_of_length_le (by rw [hitems]; simp), hitems, List.mapM_map]
    refine mapM_eq_map fun i _ => ?_
    obtain ⟨inertial, fr, hi, hf, hr, hfd, hdl⟩ := read_linkNode (Or.inr rfl : "CoM_" = "m_CoM_" ∨ _)
      (fun k => (s1.vec .DYN).getD (10 * i + k) none) ((List.range c.dlOrd).map fun j => (s1.vec .Dl).getD (c.dlOrd * i + j) none)
    simp only [Function.comp, readDynLink, readLink, Option.bind_some, hi, hr, hf, hfd, if_true, hdl, Option.map_some]
  have hloop := dynLoop_ok dyn.items 0 s2 _ h2 (Nat.zero_le _) hread fun e he dl hdl => by
    obtain ⟨i, _, rfl⟩ := List.mem_map.mp he
    cases hdl
    simp
  have hm1 : ((List.range c.n).map fun i => ((List.range 10).map fun k => (s1.vec .DYN).getD (10 * i + k) none,
      some ((List.range c.dlOrd).map fun j => (s1.vec .Dl).getD (c.dlOrd * i + j) none))).map Prod.fst =
      (List.range c.n).map fun i => (List.range 10).map fun k => (s1.vec .DYN).getD (10 * i + k) none := by
    rw [List.map_map]; rfl
  have hm2 : ((List.range c.n).map fun i => ((List.range 10).map fun k => (s1.vec .DYN).getD (10 * i + k) none,
      some ((List.range c.dlOrd).map fun j => (s1.vec .Dl).getD (c.dlOrd * i + j) none))).map Prod.snd =
      ((List.range c.n).map fun i => (List.range c.dlOrd).map fun j => (s1.vec .Dl).getD (c.dlOrd * i + j) none).map some := by
    rw [List.map_map, List.map_map]; rfl
  rw [hm1, hm2, flatten_pieces hl1, Nat.mul_zero, splice_full (by rw [hl1, hl2]), dlWrites_all, flatten_pieces hd1, Nat.mul_zero,
    splice_full (by rw [hd1, hd2])] at hloop
  rotate_left
  · intro x hx
    obtain ⟨i, _, rfl⟩ := List.mem_map.mp hx
    simp
  · simp [hd2]
  have hs3 : Sized c ((s2.set .DYN (s1.vec .DYN)).set .Dl (s1.vec .Dl)) :=
    (h2.set' (by rw [hl1, hl2])).set' (by rw [set_vec_ne _ _ (by decide), hd1, hd2])
  have hv : ((s2.set .DYN (s1.vec .DYN)).set .Dl (s1.vec .Dl)).vec .DYN = s1.vec .DYN := by
    rw [set_vec_ne _ _ (by decide), set_vec_same]
  refine ⟨((s2.set .DYN (s1.vec .DYN)).set .Dl (s1.vec .Dl)).set .REG (regOfDynW c.n (s1.vec .DYN)), ?_, ?_, ?_, ?_, ?_, rfl⟩
  · simp only [Call.run, loadConf, yaml, saveDYN, hfile, loadBody_dyn, hdef, if_true, hloop, Out.bind, updateREG_eq hs3, hv]
    rfl
  · rw [set_vec_ne _ _ (by decide), hv]
  · rw [set_vec_ne _ _ (by decide), set_vec_same]
  · rw [set_vec_same, set_vec_ne _ _ (by decide), hv]
    exact consistent_of_eq hl1 rfl
  · intro f h1 h2 h3
    rw [set_vec_ne _ _ h1, set_vec_ne _ _ h3, set_vec_ne _ _ h2]

/-- Two different reachable states of a robot with two joints; the saved values have non-zero masses. -/
example : ∃ s1 s2 p, runAll ⟨2, 0, 0, 0, 1, 0⟩ [.setREG (vecN 20 fun k => k + 1) true] (init ⟨2, 0, 0, 0, 1, 0⟩) = some s1 ∧
    runAll ⟨2, 0, 0, 0, 1, 0⟩ [.setPar .Dl [some 1, some 2]] (init ⟨2, 0, 0, 0, 1, 0⟩) = some s2 ∧
    s1.vec .REG = vecN (10 * 2) p ∧ (∀ i < 2, p (10 * i) ≠ 0) ∧ s1.vec .REG ≠ s2.vec .REG := by
  refine ⟨_, (init ⟨2, 0, 0, 0, 1, 0⟩).set .Dl [some 1, some 2], fun k => (k : ℝ) + 1,
    by rw [runAll, run_setREG (sized_init _) (by rw [length_vecN]; rfl)]; rfl, ?_, ?_, fun i _ => by positivity, ?_⟩
  · simp [runAll, Call.run, setPar, ParField.field, init, Cfg.size, Out.caught]
  · rw [set_vec_ne _ _ (by decide), set_vec_same]
  · rw [set_vec_ne _ _ (by decide), set_vec_same, set_vec_ne _ _ (by decide)]
    intro h
    have := congrArg (fun l => l[1]?) h
    simp [init, Cfg.size, vecN, List.replicate] at this

end Thunder.Wrap
