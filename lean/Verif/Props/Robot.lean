import Verif.Lemmas.CheckName
import Verif.Lemmas.RobotFun
import Mathlib.Tactic.NormNum

/-!
# Class `Robot`: C29, C32, C44, C53
-/

open scoped Classical

namespace Thunder

open Robot Spec Act

/-! ## An example robot -/

namespace Ex

/-- One revolute joint, all gravity components but the last numeric. -/
noncomputable def rob : Robot where
  name := "robot"
  n := 1
  ne := 0
  elastic := false
  types := ["R"]
  isEla := [0]
  kI := 0
  dI := 0
  dlI := 0
  dmI := 0
  args := [("dq", [some 2]), ("par_DYN", vecN 10 fun k => if k = 0 then 3 else 1), ("par_REG", vecN 10 fun _ => 0),
    ("par_gravity", [some 0, some 0, some (-9.81)]), ("q", [some 1])]
  model := [("par_gravity", SX.sym "gravity" 3), ("q", SX.sym "q" 1)]
  symb := [("par_gravity", [0, 0, 1]), ("q", [1])]
  funs := []
  funArgs := []
  funDescr := []

end Ex

/-! ## C53 -/

/-- C53: `get` of a name that is not registered returns the 1×1 zero matrix and leaves the robot as it is. -/
theorem C53_unknown (r : Robot) (name : String) (h : r.funArgs.has name = false) : Robot.get name r = .ok ⟨1, 1, [some 0]⟩ r := by
  have : r.funArgs.find name = none := by
    unfold SMap.has at h
    cases e : r.funArgs.find name with
    | none => rfl
    | some a => rw [e] at h; cases h
  unfold Robot.get
  rw [bind_ok (read_run r), this]
  rfl

/-- C53: whatever `get` does, no later call can tell that it happened.  The hypothesis is the invariant of `C53_history`. -/
theorem C53_get (r : Robot) (h : ∀ k, r.funArgs.has k = true → r.model.has k = true) (name : String) (cs : List RCall) :
    match Robot.get name r with
    | .ok _ r' => trace cs r' = trace cs r
    | .yaml r' => trace cs r' = trace cs r
    | .exc r' => trace cs r' = trace cs r
    | .ub => True := by
  cases hn : r.funArgs.find name with
  | none =>
    rw [C53_unknown r name (by unfold SMap.has; rw [hn]; rfl)]
  | some fa =>
    have hm : r.model.has name = true := h name (by unfold SMap.has; rw [hn]; rfl)
    have hins : r.model.ins name (SX.zeros 0 0) = r.model := by simp [SMap.ins, hm]
    have hs : trace cs (fa.foldl touchArg r) = trace cs r := trace_sim cs (sim_touches fa r)
    unfold Robot.get
    rw [bind_ok (read_run r), hn]
    simp only
    rw [bind_ok (modify_run _ _), hins]
    cases r.funs.find name with
    | none => rw [bind_ub (ofIdx_none _)]; trivial
    | some f =>
      rw [bind_ok (ofIdx_some _ _)]
      cases f.call (fa.map r.arg) with
      | none => rw [bind_exc (ofExc_none _)]; exact hs
      | some res =>
        rw [bind_ok (ofExc_some _ _)]
        cases fill ((r.mod name).rows * (r.mod name).cols) res with
        | none => rw [bind_ub (ofIdx_none _)]; trivial
        | some d => rw [bind_ok (ofIdx_some _ _)]; exact hs

/-- C53 over histories: on a robot reached by any calls from one without registered functions, `get` never changes a later result. -/
theorem C53_history (r₀ : Robot) (h₀ : r₀.funArgs = []) (hist : List RCall) {r : Robot} (e : after hist r₀ = some r) (name : String)
    (cs : List RCall) : match Robot.get name r with
    | .ok _ r' => trace cs r' = trace cs r
    | .yaml r' => trace cs r' = trace cs r
    | .exc r' => trace cs r' = trace cs r
    | .ub => True := by
  refine C53_get r (after_keeps (I := Registered) (fun c _ => keeps_registered c) (fun k hk => ?_) e) name cs
  rw [h₀] at hk
  cases hk

namespace Ex
example : Robot.get "M" rob = .ok ⟨1, 1, [some 0]⟩ rob := C53_unknown rob "M" rfl
example : rob.funArgs = [] := rfl
end Ex

/-! ## C32 -/

/-- A sized setter on an argument stored with too few entries. -/
theorem setSized_short {k : String} {s : ℕ} {v w : List Num} {r : Robot} (hv : v.length = s) (h : (r.arg k).length < v.length)
    (hw : v.take (r.arg k).length = w) : setSized k s v r = .exc (r.setArgs k w) := by
  unfold setSized
  rw [bind_ok (modify_run _ _), if_pos hv]
  have : assign k v (r.touchArg k) = .exc (r.setArgs k w) := by
    unfold assign
    rw [bind_ok (read_run _), arg_touch, if_neg (by omega), bind_ok (modify_run _ _), hw, setArgs_touch]
    rfl
  exact bind_exc this

/-- A sized setter on an argument stored with too many entries. -/
theorem setSized_long {k : String} {s : ℕ} {v : List Num} {r : Robot} (hv : v.length = s) (h : v.length ≤ (r.arg k).length) :
    setSized k s v r = .ok 1 (r.setArgs k (v ++ (r.arg k).drop v.length)) := by
  unfold setSized
  rw [bind_ok (modify_run _ _), if_pos hv]
  have : assign k v (r.touchArg k) = .ok () (r.setArgs k (v ++ (r.arg k).drop v.length)) := by
    unfold assign
    rw [bind_ok (read_run _), arg_touch, if_pos h, modify_run, setArgs_touch]
  rw [bind_ok this]
  rfl

theorem argName_eq (f : VarName) : argName f = f.key := by cases f <;> rfl
theorem argSize_eq (r : Robot) (f : VarName) : argSize r f = f.size r := by cases f <;> rfl

/-- C32: when the argument is stored with its size, a setter returns 1 exactly for a vector of the right size; then the argument is the given
vector and nothing else changes; otherwise nothing changes.  The hypotheses hold along every history (`C32_history`); without them the claim is
false (`C32_fails`, `C32_fails_tail`). -/
theorem C32_partial (r : Robot) (f : VarName) (v : List Num) (h : r.args.has (argName f) = true) (hs : (r.arg (argName f)).length = argSize r f) :
    (v.length = argSize r f → ∃ r', setVar f v r = .ok 1 r' ∧ r'.arg (argName f) = v ∧ (∀ k, k ≠ argName f → r'.args.find k = r.args.find k) ∧
      r' = { r with args := r'.args }) ∧
    (v.length ≠ argSize r f → setVar f v r = .ok 0 r) := by
  simp only [argName_eq, argSize_eq] at *
  constructor
  · intro hv
    refine ⟨r.setArgs f.key v, ?_, ?_, fun k hk => ?_, rfl⟩
    · unfold setVar
      rw [bind_ok (read_run r)]
      exact setSized_ok hs hv
    · rw [arg_setArgs, if_pos rfl]
    · rw [find_setArgs, if_neg (Ne.symm hk)]
  · intro hv
    unfold setVar
    rw [bind_ok (read_run r), setSized_wrong hv, touch_of_has h]

/-- C32, exact condition: the setter does what the claim says for every vector, of the right size or not, exactly when the argument is present and
stored with its size. -/
theorem C32_iff (r : Robot) (f : VarName) :
    (∀ v : List Num, (v.length = argSize r f → ∃ r', setVar f v r = .ok 1 r' ∧ r'.arg (argName f) = v ∧
        (∀ k, k ≠ argName f → r'.args.find k = r.args.find k) ∧ r' = { r with args := r'.args }) ∧
      (v.length ≠ argSize r f → setVar f v r = .ok 0 r)) ↔
    r.args.has (argName f) = true ∧ (r.arg (argName f)).length = argSize r f := by
  refine ⟨fun h => ⟨?_, ?_⟩, fun h v => C32_partial r f v h.1 h.2⟩
  · have hv : (List.replicate (argSize r f + 1) (some 0 : Num)).length ≠ argSize r f := by rw [List.length_replicate]; omega
    have e := (h _).2 hv
    rw [argSize_eq] at e hv
    unfold setVar at e
    rw [bind_ok (read_run r), setSized_wrong hv] at e
    have ht : r.touchArg f.key = r := (Res.ok.inj e).2
    rw [argName_eq, ← ht]
    exact (has_ins _ _ _ _).2 (.inl rfl)
  · obtain ⟨r', e, ha, -, -⟩ := (h (List.replicate (argSize r f) (some 0))).1 List.length_replicate
    rw [argName_eq] at ha ⊢
    rw [argSize_eq] at e ha ⊢
    unfold setVar at e
    rw [bind_ok (read_run r)] at e
    rcases lt_or_ge (r.arg f.key).length (f.size r) with hl | hl
    · rw [setSized_short List.length_replicate (by rwa [List.length_replicate]) rfl] at e
      cases e
    · rw [setSized_long List.length_replicate (by rwa [List.length_replicate])] at e
      rw [← (Res.ok.inj e).2, arg_setArgs, if_pos rfl] at ha
      have := congrArg List.length ha
      simp only [List.length_append, List.length_drop, List.length_replicate] at this
      omega

/-- C32 over histories: from a robot whose argument is stored with its size and fully symbolic (as the constructor leaves it), the hypotheses
of `C32_partial` hold after any calls, provided `set_arg` is not used to store a vector of another size under this name. -/
theorem C32_history (r₀ : Robot) (f : VarName) (h₁ : r₀.args.has (argName f) = true) (h₂ : (r₀.arg (argName f)).length = argSize r₀ f)
    (h₃ : r₀.symb.has (argName f) = true) (h₄ : ∀ p ∈ r₀.symb, p.1 = argName f → p.2.length = argSize r₀ f ∧ ∀ x ∈ p.2, x ≠ 0)
    (hist : List RCall) (hh : ∀ v, RCall.setArg (argName f) v ∈ hist → v.length = argSize r₀ f) {r : Robot} (e : after hist r₀ = some r) :
    r.args.has (argName f) = true ∧ (r.arg (argName f)).length = argSize r f := by
  simp only [argName_eq, argSize_eq] at *
  have hk : f.key ∉ parKeys := by cases f <;> simp [VarName.key, parKeys]
  have hd : Dims r₀.n r₀.ne r := after_keeps (I := Dims r₀.n r₀.ne) (fun c _ => keeps_dims c) ⟨rfl, rfl⟩ e
  have hi : SizeInv f.key (f.size r₀) r := after_keeps (fun c hc => keeps_size hk c fun v hv => hh v (hv ▸ hc)) ⟨h₁, h₂, h₃, h₄⟩ e
  refine ⟨hi.has, hi.len.trans ?_⟩
  cases f <;> simp [VarName.size, hd.1, hd.2]

/-- C32 fails: with an elastic joint but no stored argument `x` (a configuration without `ELASTIC_MODEL`, see `C32_fails_config`), `set_x` with
a vector of the right size throws. -/
theorem C32_fails : ∃ (r : Robot) (v : List Num) (r' : Robot), v.length = argSize r .x ∧ setVar .x v r = .exc r' := by
  have hk : ∀ r : Robot, r.ne = 1 → r.arg "x" = [] → setVar .x [some 1] r = .exc (r.setArgs "x" []) := by
    intro r hn hr
    unfold setVar
    rw [bind_ok (read_run _)]
    exact setSized_short (by simp [VarName.size, hn]) (by simp [VarName.key, hr]) (by simp [VarName.key, hr])
  exact ⟨{ Ex.rob with ne := 1 }, [some 1], _, rfl, hk _ rfl rfl⟩

/-- C32 fails: after `set_arg` stored a longer vector under the name, the setter returns 1 but the tail of the old value stays. -/
theorem C32_fails_tail : ∃ (r r' : Robot) (v : List Num), after [.setArg "q" [some 5, some 6]] Ex.rob = some r ∧
    v.length = argSize r .q ∧ setVar .q v r = .ok 1 r' ∧ r'.arg "q" ≠ v := by
  refine ⟨Ex.rob.setArgs "q" [some 5, some 6], (Ex.rob.setArgs "q" [some 5, some 6]).setArgs "q" [some 7, some 6], [some 7], rfl, rfl, ?_, ?_⟩
  · unfold setVar
    rw [bind_ok (read_run _)]
    have hq : (Ex.rob.setArgs "q" [some 5, some 6]).arg VarName.q.key = [some 5, some 6] := (arg_setArgs _ _ _ _).trans (if_pos rfl)
    refine (setSized_long rfl (by rw [hq]; simp)).trans ?_
    rw [hq]
    rfl
  · rw [arg_setArgs, if_pos rfl]; simp

namespace Ex
example : rob.args.has (argName .q) = true ∧ (rob.arg (argName .q)).length = argSize rob .q := ⟨rfl, rfl⟩
example : rob.symb.has (argName .q) = true ∧
    ∀ p ∈ rob.symb, p.1 = argName .q → p.2.length = argSize rob .q ∧ ∀ x ∈ p.2, x ≠ 0 := by
  refine ⟨rfl, fun p hp => ?_⟩
  simp only [rob, List.mem_cons, List.not_mem_nil, or_false] at hp
  rcases hp with rfl | rfl <;> simp [argName, argSize, rob]
end Ex

/-! ## C29 -/

/-- What `set_par_DYN` does: when it returns 1, `par_REG` is what it was before. -/
theorem C29_stale (r : Robot) (v : List Num) {r' : Robot} (e : setParDYN v r = .ok 1 r') : r'.arg "par_REG" = r.arg "par_REG" := by
  unfold setParDYN at e
  rw [bind_ok (read_run r)] at e
  unfold setSized at e
  rw [bind_ok (modify_run _ _)] at e
  split_ifs at e with h
  · unfold assign at e
    rw [bind_def, bind_ok (read_run _), arg_touch] at e
    by_cases hl : v.length ≤ (r.arg "par_DYN").length
    · rw [if_pos hl, modify_run] at e
      simp only [pure_run, Res.ok.injEq, true_and] at e
      rw [← e, arg_setArgs, if_neg (by decide), arg_touch]
    · rw [if_neg hl] at e
      rw [bind_ok (modify_run _ _), ofExc_none] at e
      cases e
  · simp at e

/-- The same for `set_par_REG`. -/
theorem C29_stale_REG (r : Robot) (v : List Num) {r' : Robot} (e : setParREG v r = .ok 1 r') : r'.arg "par_DYN" = r.arg "par_DYN" := by
  unfold setParREG at e
  rw [bind_ok (read_run r)] at e
  unfold setSized at e
  rw [bind_ok (modify_run _ _)] at e
  split_ifs at e with h
  · unfold assign at e
    rw [bind_def, bind_ok (read_run _), arg_touch] at e
    by_cases hl : v.length ≤ (r.arg "par_REG").length
    · rw [if_pos hl, modify_run] at e
      simp only [pure_run, Res.ok.injEq, true_and] at e
      rw [← e, arg_setArgs, if_neg (by decide), arg_touch]
    · rw [if_neg hl] at e
      rw [bind_ok (modify_run _ _), ofExc_none] at e
      cases e
  · simp at e

/-- Two parameter vectors whose first masses differ are not consistent. -/
theorem not_consistent_of_mass {n : ℕ} (hn : 0 < n) {d r : List Num} {p : ℕ → ℝ} (hd : d = vecN (10 * n) p ∨ r = vecN (10 * n) p)
    (h : d[0]? ≠ r[0]?) : ¬ Consistent n d r := by
  rintro ⟨-, -, hc⟩
  rcases hc 0 hn with ⟨x, h1, h2⟩ | ⟨⟨k, hk, h1⟩, k', hk', h2⟩
  · refine h ?_
    have a := h1 0 (by decide)
    have b := h2 0 (by decide)
    simp only [Nat.mul_zero, Nat.add_zero] at a b
    rw [a, b]
    rfl
  · rcases hd with rfl | rfl
    · have : 10 * 0 + k < 10 * n := by omega
      simp [vecN] at h1
    · have : 10 * 0 + k' < 10 * n := by omega
      simp [vecN] at h2

/-- `get_par_DYN`, `get_par_REG` return the stored vector. -/
theorem getPar10_eq {k : String} {r : Robot} {v : List Num} (h : r.arg k = v) (hv : v.length = 10 * r.n) :
    getPar10 k r = .ok v (r.touchArg k) := by
  rw [getPar10_ok (by rw [h]; exact hv), h]

/-- C29 fails for every robot with at least one joint: there is a vector of numbers of the right size for which `set_par_DYN` returns 1 and
`get_par_REG` is not the REG image of `get_par_DYN`. -/
theorem C29_fails (r : Robot) (hn : 0 < r.n) (hd : (r.arg "par_DYN").length = 10 * r.n) (hr : (r.arg "par_REG").length = 10 * r.n) :
    ∃ p : ℕ → ℝ, ∃ r₁ r₂ g, setParDYN (vecN (10 * r.n) p) r = .ok 1 r₁ ∧ getParREG r₁ = .ok g r₂ ∧ ¬ Consistent r.n (vecN (10 * r.n) p) g := by
  obtain ⟨m, hm⟩ : ∃ m : ℝ, some (some m) ≠ (r.arg "par_REG")[0]? := by
    by_cases h0 : some (some (0 : ℝ)) = (r.arg "par_REG")[0]?
    · exact ⟨1, by rw [← h0]; simp⟩
    · exact ⟨0, h0⟩
  have e1 : setParDYN (vecN (10 * r.n) fun _ => m) r = .ok 1 (r.setArgs "par_DYN" (vecN (10 * r.n) fun _ => m)) := by
    unfold setParDYN
    rw [bind_ok (read_run r)]
    exact setSized_ok hd (length_vecN _ _)
  have hr' : (r.setArgs "par_DYN" (vecN (10 * r.n) fun _ => m)).arg "par_REG" = r.arg "par_REG" := C29_stale r _ e1
  refine ⟨fun _ => m, _, _, _, e1, getPar10_ok (by rw [hr']; exact hr), not_consistent_of_mass hn (.inl rfl) ?_⟩
  rw [hr']
  have : 0 < 10 * r.n := by omega
  simpa [vecN, this] using hm

/-- C29 fails in the same way for `set_par_REG`. -/
theorem C29_fails_REG (r : Robot) (hn : 0 < r.n) (hd : (r.arg "par_DYN").length = 10 * r.n) (hr : (r.arg "par_REG").length = 10 * r.n) :
    ∃ p : ℕ → ℝ, ∃ r₁ r₂ g, setParREG (vecN (10 * r.n) p) r = .ok 1 r₁ ∧ getParDYN r₁ = .ok g r₂ ∧ ¬ Consistent r.n g (vecN (10 * r.n) p) := by
  obtain ⟨m, hm⟩ : ∃ m : ℝ, (r.arg "par_DYN")[0]? ≠ some (some m) := by
    by_cases h0 : (r.arg "par_DYN")[0]? = some (some (0 : ℝ))
    · exact ⟨1, by rw [h0]; simp⟩
    · exact ⟨0, h0⟩
  have e1 : setParREG (vecN (10 * r.n) fun _ => m) r = .ok 1 (r.setArgs "par_REG" (vecN (10 * r.n) fun _ => m)) := by
    unfold setParREG
    rw [bind_ok (read_run r)]
    exact setSized_ok hr (length_vecN _ _)
  have hd' : (r.setArgs "par_REG" (vecN (10 * r.n) fun _ => m)).arg "par_DYN" = r.arg "par_DYN" := C29_stale_REG r _ e1
  refine ⟨fun _ => m, _, _, _, e1, getPar10_ok (by rw [hd']; exact hd), not_consistent_of_mass hn (.inr rfl) ?_⟩
  rw [hd']
  have : 0 < 10 * r.n := by omega
  simpa [vecN, this] using hm

/-- What holds: `set_par_DYN` followed by an explicit `update_inertial_REG` makes the two consistent.  Missing for C29: the setter itself never
makes that call. -/
theorem C29_partial (r : Robot) (v : List Num) (hd : (r.arg "par_DYN").length = 10 * r.n) (hr : (r.arg "par_REG").length = 10 * r.n)
    (hv : v.length = 10 * r.n) : ∃ r₁ r₂ r₃ r₄ g, setParDYN v r = .ok 1 r₁ ∧ updateREG r₁ = .ok 1 r₂ ∧ getParDYN r₂ = .ok v r₃ ∧
      getParREG r₂ = .ok g r₄ ∧ Consistent r.n v g := by
  have e1 : setParDYN v r = .ok 1 (r.setArgs "par_DYN" v) := by
    unfold setParDYN
    rw [bind_ok (read_run r)]
    exact setSized_ok hd hv
  have hd1 : (r.setArgs "par_DYN" v).arg "par_DYN" = v := (arg_setArgs _ _ _ _).trans (if_pos rfl)
  have hr1 : (r.setArgs "par_DYN" v).arg "par_REG" = r.arg "par_REG" := (arg_setArgs _ _ _ _).trans (if_neg (by decide))
  have e2 := updateREG_ok (r := r.setArgs "par_DYN" v) (by rw [hd1]; exact hv) (by rw [hr1]; exact hr)
  rw [hd1] at e2
  exact ⟨_, _, _, _, regOfDyn r.n v, e1, e2, getPar10_eq (((arg_setArgs _ _ _ _).trans (if_neg (by decide))).trans ((arg_touch _ _ _).trans hd1)) hv,
    getPar10_eq ((arg_setArgs _ _ _ _).trans (if_pos rfl)) (length_regOfDyn _ _), Wrap.consistent_of_eq hv (regOfDynW_eq _ _).symm⟩

/-- The same for `set_par_REG` followed by an explicit `update_inertial_DYN`, for numbers with non-zero masses. -/
theorem C29_partial_REG (r : Robot) (p : ℕ → ℝ) (hd : (r.arg "par_DYN").length = 10 * r.n) (hr : (r.arg "par_REG").length = 10 * r.n)
    (hp : ∀ i < r.n, p (10 * i) ≠ 0) : ∃ r₁ r₂ r₃ r₄ d, setParREG (vecN (10 * r.n) p) r = .ok 1 r₁ ∧ updateDYN r₁ = .ok 1 r₂ ∧
      getParREG r₂ = .ok (vecN (10 * r.n) p) r₃ ∧ getParDYN r₂ = .ok d r₄ ∧ Consistent r.n d (vecN (10 * r.n) p) := by
  have hv := length_vecN (10 * r.n) p
  generalize hg : vecN (10 * r.n) p = v at hv ⊢
  have e1 : setParREG v r = .ok 1 (r.setArgs "par_REG" v) := by
    unfold setParREG
    rw [bind_ok (read_run r)]
    exact setSized_ok hr hv
  have hr1 : (r.setArgs "par_REG" v).arg "par_REG" = v := (arg_setArgs _ _ _ _).trans (if_pos rfl)
  have hd1 : (r.setArgs "par_REG" v).arg "par_DYN" = r.arg "par_DYN" := (arg_setArgs _ _ _ _).trans (if_neg (by decide))
  have e2 := updateDYN_ok (r := r.setArgs "par_REG" v) (by rw [hd1]; exact hd) (by rw [hr1]; exact hv)
  rw [hr1] at e2
  refine ⟨_, _, _, _, dynOfReg r.n v, e1, e2, getPar10_eq (((arg_setArgs _ _ _ _).trans (if_neg (by decide))).trans ((arg_touch _ _ _).trans hr1)) hv,
    getPar10_eq ((arg_setArgs _ _ _ _).trans (if_pos rfl)) (length_dynOfReg _ _), Wrap.consistent_of_eq (length_dynOfReg _ _) ?_⟩
  rw [← dynOfRegW_eq, Wrap.reg_dyn_of_realMass ⟨p, hg.symm, hp⟩]

/-- The exact condition: after `set_par_DYN(v)` the two are consistent if and only if the vector `par_REG` from before was already the image of `v`. -/
theorem C29_iff (r : Robot) (v : List Num) (hd : (r.arg "par_DYN").length = 10 * r.n) (hr : (r.arg "par_REG").length = 10 * r.n)
    (hv : v.length = 10 * r.n) : ∃ r₁ r₂ g, setParDYN v r = .ok 1 r₁ ∧ getParREG r₁ = .ok g r₂ ∧
      (Consistent r.n v g ↔ Consistent r.n v (r.arg "par_REG")) := by
  have e1 : setParDYN v r = .ok 1 (r.setArgs "par_DYN" v) := by
    unfold setParDYN
    rw [bind_ok (read_run r)]
    exact setSized_ok hd hv
  exact ⟨_, _, _, e1, getPar10_eq (C29_stale r v e1) hr, Iff.rfl⟩

/-- The same for `set_par_REG`. -/
theorem C29_iff_REG (r : Robot) (v : List Num) (hd : (r.arg "par_DYN").length = 10 * r.n) (hr : (r.arg "par_REG").length = 10 * r.n)
    (hv : v.length = 10 * r.n) : ∃ r₁ r₂ g, setParREG v r = .ok 1 r₁ ∧ getParDYN r₁ = .ok g r₂ ∧
      (Consistent r.n g v ↔ Consistent r.n (r.arg "par_DYN") v) := by
  have e1 : setParREG v r = .ok 1 (r.setArgs "par_REG" v) := by
    unfold setParREG
    rw [bind_ok (read_run r)]
    exact setSized_ok hr hv
  exact ⟨_, _, _, e1, getPar10_eq (C29_stale_REG r v e1) hd, Iff.rfl⟩

namespace Ex
example : 0 < rob.n ∧ (rob.arg "par_DYN").length = 10 * rob.n ∧ (rob.arg "par_REG").length = 10 * rob.n :=
  ⟨by decide, by simp [rob, Robot.arg, SMap.get, SMap.find], by simp [rob, Robot.arg, SMap.get, SMap.find]⟩
end Ex

/-! ## C44 -/

/-- C44: without `overwrite`, an existing name (of a function or of an argument) is left alone. -/
theorem C44_protect (r : Robot) (f : String) (expr : SX) (fargs : List String) (descr : String) (h : r.model.has f = true) :
    addFunction f expr fargs descr false r = .ok 0 r := by
  unfold addFunction
  rw [bind_ok (read_run r), h]
  rfl

/-- C44: a function is added only to a robot with a name and under a name that CasADi accepts. -/
theorem C44_names (r : Robot) (f : String) (expr : SX) (fargs : List String) (descr : String) (ow : Bool) {r' : Robot}
    (e : addFunction f expr fargs descr ow r = .ok 1 r') : RobotName r.name ∧ ∀ x ∈ f.toList, x.isAlphanum = true ∨ x = '_' := by
  have h := addFunction_name e (.inl (by decide))
  exact ⟨robotName_of_check h, chars_of_check h⟩

/-- C44: with a fresh name or `overwrite`, `add_function` returns 1, and from then on, whatever the arguments are set to, `get` returns the
expression evaluated at the current arguments.  Hypotheses: the names are accepted by CasADi, the symbols `vs` are those of the flagged rows of the arguments, without repetition
(each symbol belongs to one argument), they cover the free symbols of the expression, and the function is not its own argument.  Missing:
after `update_symb_parameters` the first hypothesis fails for every partially symbolic parameter, and so does the claim (`C44_fails`). -/
theorem C44_add_partial (r : Robot) (f : String) (expr : SX) (fargs : List String) (descr : String) (ow : Bool) (vs : List (List Var))
    (hr : RobotName r.name) (hfn : FunName f) (how : ow = true ∨ r.model.has f = false) (hs : List.Forall₂ (fun a v => Selected (r.flags a) (r.mod a) v) fargs vs) (hf : f ∉ fargs)
    (hn : vs.flatten.Nodup) (hfv : ∀ i < expr.rows, ∀ j < expr.cols, (expr.e i j).fv ⊆ {v | v ∈ vs.flatten}) :
    ∃ r', addFunction f expr fargs descr ow r = .ok 1 r' ∧ r'.args = r.args ∧ (∀ k, k ≠ f → r'.mod k = r.mod k) ∧
      ∀ (args : SMap (List Num)) (ρ : Var → ℝ),
        List.Forall₂ (fun a l => ({ r' with args := args } : Robot).arg a = l.map fun v => some (ρ v)) fargs vs →
        ∃ m r'', Robot.get f { r' with args := args } = .ok m r'' ∧ MatIs m expr ρ := by
  obtain ⟨r', e, ha⟩ := addFunction_ok (descr := descr) (check_of_good hr hfn) how hs hf hn hfv
  have hargs : r'.args = r.args := by rw [ha.eq]
  refine ⟨r', e, hargs, ha.mod, fun args ρ hv => ?_⟩
  obtain ⟨r'', e2, _⟩ := get_ok (r := { r' with args := args }) (f := f) (A := expr) (fargs := fargs) (vs := vs) (ρ := ρ)
    (by rw [ha.eq]; exact SMap.find_put_same _ _ _) (by rw [ha.eq]; exact SMap.find_put_same _ _ _) ha.modf hfv hv
  refine ⟨_, r'', e2, rfl, rfl, ?_, fun i hi j hj => ?_⟩
  · simp [length_elements]
  · simp only [List.getElem?_map]
    rw [getElem?_elements hi hj]
    rfl

namespace Ex

/-- Weight of a unit mass along `z`: the third gravity component. -/
noncomputable def weight : SX := SX.ofList [Expr.var ⟨"gravity", 2⟩]

theorem selected_gravity : Selected (rob.flags "par_gravity") (rob.mod "par_gravity") [⟨"gravity", 2⟩] := by
  have e1 : rob.flags "par_gravity" = [0, 0, 1] := rfl
  have e2 : rob.mod "par_gravity" = SX.sym "gravity" 3 := rfl
  rw [e1, e2]
  refine ⟨by decide, ?_⟩
  simp [SX.sym, List.range_succ, List.filter]

example : List.Forall₂ (fun a v => Selected (rob.flags a) (rob.mod a) v) ["par_gravity"] [[⟨"gravity", 2⟩]] ∧
    ([[⟨"gravity", 2⟩]] : List (List Var)).flatten.Nodup ∧
    (∀ i < weight.rows, ∀ j < weight.cols, (weight.e i j).fv ⊆ {v | v ∈ ([[⟨"gravity", 2⟩]] : List (List Var)).flatten}) ∧
    rob.model.has "weight" = false ∧ RobotName rob.name ∧ FunName "weight" := by
  refine ⟨.cons selected_gravity .nil, by simp, fun i hi j hj v hv => ?_, rfl, ⟨⟨'r', "obot".toList, by decide +kernel, by decide⟩, by decide +kernel,
    by decide +kernel, by decide +kernel⟩, ⟨by decide +kernel, by decide +kernel, by decide +kernel, by decide +kernel, by decide +kernel⟩⟩
  have hi : i = 0 := by simp [weight, SX.ofList] at hi; omega
  have hj : j = 0 := by simp [weight, SX.ofList] at hj; omega
  subst hi; subst hj
  simpa [weight, SX.ofList, Expr.fv] using hv

/-- `rob` after `update_symb_parameters`. -/
noncomputable def robU : Robot := { rob with
  args := [("dq", [some 2]), ("par_DYN", vecN 10 fun k => if k = 0 then 3 else 1), ("par_REG", vecN 10 fun _ => 0),
    ("par_gravity", [some (-9.81)]), ("q", [some 1])],
  model := [("par_gravity", SX.ofList [Expr.var ⟨"gravity", 2⟩]), ("q", SX.ofList [Expr.var ⟨"q", 0⟩])] }

theorem updateSymb_rob : updateSymb rob = .ok () robU := by
  have e1 : compact "par_gravity" [0, 0, 1] rob = .ok () { rob with
      args := rob.args.put "par_gravity" [some (-9.81)], model := rob.model.put "par_gravity" (SX.ofList [Expr.var ⟨"gravity", 2⟩]) } := by
    have h1 : rob.mod "par_gravity" = SX.sym "gravity" 3 := rfl
    have h2 : rob.arg "par_gravity" = [some 0, some 0, some (-9.81)] := rfl
    unfold compact
    rw [bind_ok (read_run _), h1, h2]
    simp [keep, List.range_succ, SX.sym, bind_def]
  have e2 : ∀ r : Robot, r.mod "q" = SX.sym "q" 1 → r.arg "q" = [some 1] → compact "q" [1] r = .ok () { r with
      args := r.args.put "q" [some 1], model := r.model.put "q" (SX.ofList [Expr.var ⟨"q", 0⟩]) } := by
    intro r h1 h2
    unfold compact
    rw [bind_ok (read_run _), h1, h2]
    simp [keep, List.range_succ, SX.sym, bind_def]
  unfold updateSymb
  rw [bind_ok (read_run _)]
  simp only [rob, List.foldl_cons, List.foldl_nil]
  have e3 : ((pure () : Act Robot Unit) >>= fun _ => compact "par_gravity" [0, 0, 1]) rob = .ok () { rob with
      args := rob.args.put "par_gravity" [some (-9.81)], model := rob.model.put "par_gravity" (SX.ofList [Expr.var ⟨"gravity", 2⟩]) } := e1
  refine (bind_ok e3).trans ((e2 _ ?_ ?_).trans ?_)
  · exact SMap.get_put_ne _ _ _ (by decide)
  · exact SMap.get_put_ne _ _ _ (by decide)
  · simp [robU, rob, SMap.put]

end Ex

/-- C44 fails after symbolic selectivity: before `update_symb_parameters`, `add_function` registers a function of the only symbolic gravity
component; after it, the same call throws, and leaves behind a name for which `get` is undefined. -/
theorem C44_fails : (∃ r', addFunction "weight" Ex.weight ["par_gravity"] "" true Ex.rob = .ok 1 r') ∧
    ∃ r₁ r₂, updateSymb Ex.rob = .ok () r₁ ∧ addFunction "weight" Ex.weight ["par_gravity"] "" true r₁ = .exc r₂ ∧
      Robot.get "weight" r₂ = .ub := by
  refine ⟨?_, Ex.robU, { Ex.robU with
    model := Ex.robU.model.put "weight" Ex.weight, funArgs := Ex.robU.funArgs.put "weight" ["par_gravity"],
    funDescr := Ex.robU.funDescr.put "weight" "" }, Ex.updateSymb_rob, ?_, ?_⟩
  · obtain ⟨r', e, _⟩ := addFunction_ok (r := Ex.rob) (f := "weight") (expr := Ex.weight) (fargs := ["par_gravity"]) (descr := "") (ow := true)
      (vs := [[⟨"gravity", 2⟩]]) (by decide +kernel) (.inl rfl) (.cons Ex.selected_gravity .nil) (by simp) (by simp) (fun i hi j hj v hv => by
        have hi : i = 0 := by simp [Ex.weight, SX.ofList] at hi; omega
        have hj : j = 0 := by simp [Ex.weight, SX.ofList] at hj; omega
        subst hi; subst hj
        simpa [Ex.weight, SX.ofList, Expr.fv] using hv)
    exact ⟨r', e⟩
  · have hc : collect ["par_gravity"] { Ex.robU with
        model := Ex.robU.model.put "weight" Ex.weight, funArgs := Ex.robU.funArgs.put "weight" ["par_gravity"],
        funDescr := Ex.robU.funDescr.put "weight" "" } = .ok [[]] { Ex.robU with
        model := Ex.robU.model.put "weight" Ex.weight, funArgs := Ex.robU.funArgs.put "weight" ["par_gravity"],
        funDescr := Ex.robU.funDescr.put "weight" "" } := by
      simp [collect, bind_def, Ex.robU, Ex.rob, SMap.put, SMap.ins, SMap.has, SMap.find, Robot.flags, Robot.mod, SMap.get, pickRows,
        SX.ofList, List.range_succ]
    have hm : ∀ nm, mkFun nm [[]] Ex.weight = none := by
      intro nm
      unfold mkFun
      split_ifs
      swap
      · rfl
      simp only [List.mapM_cons, List.mapM_nil]
      refine if_neg ?_
      rintro ⟨-, h⟩
      have := h (Expr.var ⟨"gravity", 2⟩) (by simp [SX.elements, Ex.weight, SX.ofList])
      have := this (show (⟨"gravity", 2⟩ : Var) ∈ Expr.fv _ from rfl)
      simp at this
    unfold addFunction
    rw [bind_ok (read_run _)]
    simp only [Bool.not_true, Bool.false_and, Bool.false_eq_true, if_false]
    rw [bind_ok (modify_run _ _), bind_ok hc, hm, bind_exc (ofExc_none _)]
  · unfold Robot.get
    rw [bind_ok (read_run _), show SMap.find (Ex.robU.funArgs.put "weight" ["par_gravity"]) "weight" = some ["par_gravity"] from
      SMap.find_put_same _ _ _]
    simp only
    rw [bind_ok (modify_run _ _), show SMap.find Ex.robU.funs "weight" = none from rfl, bind_ub (ofIdx_none _)]

end Thunder
