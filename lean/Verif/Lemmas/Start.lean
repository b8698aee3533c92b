import Verif.Lemmas.Registry

/-!
# The robot before the `compute_*` functions
-/

open scoped Classical

namespace Thunder

noncomputable section

open Spec Act

namespace Robot

variable {c : Conf} {y : Yaml}

theorem model_robotOf (c : Conf) : (robotOf c).model = insAll (insAll [] (kinModel c.n)) (newModel (partOf c) c.n) := by
  have : (partOf c).model = insAll [] (kinModel c.n) := by unfold partOf; dsimp only
  unfold robotOf
  dsimp only
  rw [this]

theorem args_robotOf (c : Conf) : (robotOf c).args =
    insAll (insAll [] (kinArgs (nums (4 * c.n) c.dh) (nums 6 c.w2l) (nums 6 c.ee) (nums 3 c.g))) (newArgs (partOf c) c.n) := by
  have : (partOf c).args = insAll [] (kinArgs (nums (4 * c.n) c.dh) (nums 6 c.w2l) (nums 6 c.ee) (nums 3 c.g)) := by unfold partOf; dsimp only
  unfold robotOf
  dsimp only
  rw [this]

theorem nums_const (k : ℕ) : nums k (fun _ => 0) = zeros k := by simp [nums, zeros]

set_option linter.unusedSimpArgs false in
/-- Every entry of `model` of a new robot is one of the vectors, or `par_REG`. -/
theorem key_of_model {c : Conf} {s : String} (h : (robotOf c).model.has s = true) : (∃ k : Key, s = k.str) ∨ s = "par_REG" := by
  obtain ⟨A, hA⟩ := Option.isSome_iff_exists.1 h
  have hm := SMap.mem_of_find hA
  rw [model_robotOf] at hm
  have hs : s ∈ (kinModel c.n ++ newModel (partOf c) c.n).map Prod.fst := by
    rcases mem_insAll hm with hm | hm
    · rcases mem_insAll hm with hm | hm
      · cases hm
      · exact List.mem_map.2 ⟨_, List.mem_append_left _ hm, rfl⟩
    · exact List.mem_map.2 ⟨_, List.mem_append_right _ hm, rfl⟩
  have : s ∈ Key.all.map Key.str ++ ["par_REG"] := by
    have g1 : ∀ x ∈ ["par_DHtable", "par_world2L0", "par_Ln2EE", "par_gravity", "q", "dq", "ddq", "d3q", "d4q", "dqr", "ddqr", "w", "par_DYN", "par_REG"],
        x ∈ Key.all.map Key.str ++ ["par_REG"] := by decide
    have g2 : ∀ x ∈ ["par_Dl"], x ∈ Key.all.map Key.str ++ ["par_REG"] := by decide
    have g3 : ∀ x ∈ ["x", "dx", "ddx", "ddxr", "par_K", "par_D", "par_Dm", "par_Mm"], x ∈ Key.all.map Key.str ++ ["par_REG"] := by decide
    obtain ⟨p, hp, rfl⟩ := List.mem_map.1 hs
    unfold newModel at hp
    rw [← List.append_assoc, ← List.append_assoc] at hp
    rcases List.mem_append.1 hp with hp | hp
    · rcases List.mem_append.1 hp with hp | hp
      · exact g1 _ (List.mem_map_of_mem (f := Prod.fst) hp)
      · split_ifs at hp
        · exact g2 _ (List.mem_map_of_mem (f := Prod.fst) hp)
        · cases hp
    · split_ifs at hp
      · exact g3 _ (List.mem_map_of_mem (f := Prod.fst) hp)
      · cases hp
  rcases List.mem_append.1 this with h | h
  · obtain ⟨k, _, rfl⟩ := List.mem_map.1 h
    exact .inl ⟨k, rfl⟩
  · exact .inr (by simpa using h)

theorem find_model (c : Conf) (k : Key) : (robotOf c).model.find k.str = if k.here c then some (k.symMat c) else none := by
  have he : (partOf c).elastic = c.elastic := rfl
  have hn : (partOf c).ne = c.ne := rfl
  have h1 : (partOf c).dlI = c.dlO := rfl
  have h2 : (partOf c).kI = c.kO := rfl
  have h3 : (partOf c).dI = c.dO := rfl
  have h4 : (partOf c).dmI = c.dmO := rfl
  rw [model_robotOf, find_insAll, find_insAll]
  unfold newModel kinModel
  rw [he, hn, h1, h2, h3, h4]
  rcases Nat.eq_zero_or_pos c.dlO with hd | hd
  · cases k <;> cases hel : c.elastic <;>
      simp [SMap.find_cons, Key.str, Key.sym, Key.here, Key.symMat, Key.size, hel, hd, Nat.mul_comm]
  · cases k <;> cases hel : c.elastic <;>
      simp [SMap.find_cons, Key.str, Key.sym, Key.here, Key.symMat, Key.size, hel, hd, Nat.mul_comm]

set_option linter.unusedSimpArgs false in
/-- The arguments before the file is read again. -/
theorem arg_robotOf (c : Conf) (k : Key) (hk : k ∉ [Key.DYN, .Dl, .K, .D, .Dm, .Mm]) : (robotOf c).arg k.str = nums (k.size c) (k.val c) := by
  have he : (partOf c).elastic = c.elastic := rfl
  have hn : (partOf c).ne = c.ne := rfl
  unfold Robot.arg SMap.get
  rw [args_robotOf, find_insAll, find_insAll]
  unfold newArgs kinArgs
  rw [he, hn]
  revert hk
  cases k <;> cases hel : c.elastic <;>
    simp [SMap.find_cons, Key.str, Key.sym, Key.val, Key.size, hel, nums_const, ← nums_const, Nat.mul_comm] <;>
    (try split_ifs) <;> simp [SMap.find_cons, nums]

set_option linter.unusedSimpArgs false in
theorem arg_absent (c : Conf) (h : c.elastic = false) (k : Key) (hk : k ∈ [Key.K, .D, .Dm, .Mm]) : (robotOf c).args.find k.str = none := by
  have he : (partOf c).elastic = c.elastic := rfl
  rw [args_robotOf, find_insAll, find_insAll]
  unfold newArgs kinArgs
  rw [he, h]
  revert hk
  cases k <;> simp [SMap.find_cons, Key.str] <;> split_ifs <;> simp [SMap.find_cons]

set_option linter.unusedSimpArgs false in
theorem arg_empty (c : Conf) : (c.dlO = 0 → (robotOf c).arg "par_Dl" = []) ∧ (c.kO = 0 → (robotOf c).arg "par_K" = []) ∧
    (c.dO = 0 → (robotOf c).arg "par_D" = []) ∧ (c.dmO = 0 → (robotOf c).arg "par_Dm" = []) := by
  have he : (partOf c).elastic = c.elastic := rfl
  have hn : (partOf c).ne = c.ne := rfl
  have h1 : (partOf c).dlI = c.dlO := rfl
  have h2 : (partOf c).kI = c.kO := rfl
  have h3 : (partOf c).dI = c.dO := rfl
  have h4 : (partOf c).dmI = c.dmO := rfl
  unfold Robot.arg SMap.get
  rw [args_robotOf]
  unfold newArgs kinArgs
  rw [he, hn, h1, h2, h3, h4]
  refine ⟨fun h0 => ?_, fun h0 => ?_, fun h0 => ?_, fun h0 => ?_⟩ <;> rw [find_insAll, find_insAll, h0] <;>
    cases hel : c.elastic <;> simp [SMap.find_cons, zeros] <;> split_ifs <;> simp [SMap.find_cons, zeros]

theorem regArg_robotOf (c : Conf) : ((robotOf c).arg "par_REG").length = 10 * c.n := by
  unfold Robot.arg SMap.get
  rw [args_robotOf, find_insAll, find_insAll]
  simp [SMap.find_cons, newArgs, kinArgs, zeros]

theorem nums_of_rows {v : List Num} {n m : ℕ} {g : ℕ → ℝ} (h : Rows v n m fun i j => some (g (m * i + j))) : v = nums (n * m) g := by
  refine List.ext_getElem? fun a => ?_
  by_cases ha : a < m * n
  · have hm : 0 < m := by
      rcases Nat.eq_zero_or_pos m with h0 | h0
      · rw [h0] at ha; omega
      · exact h0
    have := h.2 (a / m) (Nat.div_lt_of_lt_mul ha) (a % m) (Nat.mod_lt _ hm)
    rw [Nat.div_add_mod] at this
    rw [this]
    simp [nums, Nat.mul_comm n m, ha, Nat.div_add_mod]
  · rw [List.getElem?_eq_none (by rw [h.1]; omega), List.getElem?_eq_none (by simp [nums, Nat.mul_comm n m]; omega)]

theorem isMap_of_child {y z : Yaml} {k : String} (h : Child y k z) : ∃ l, y = .map l := by
  obtain ⟨a, b, e, _⟩ := h
  exact ⟨_, e⟩

theorem dynamics_of_describes (h : Describes y c) : DynamicsSection y c.n (fun i j => some (c.dyn (10 * i + j))) c.dlO fun i j => some (c.dl (c.dlO * i + j)) := by
  obtain ⟨l, h1, h2, h3⟩ := h.links
  refine ⟨l, h1, h2.ge, fun i hi => ?_, fun e he => ?_⟩
  · obtain ⟨key, nd, a, ⟨z, hz, hz2, _⟩, hfr⟩ := h3 i hi
    refine ⟨key, nd, a, ⟨z, hz, hz2⟩, ?_⟩
    rcases hfr with ⟨h0, hn⟩ | ⟨w, hw, hw2, _⟩
    · exact .inl ⟨hn, fun j hj => by omega⟩
    · exact .inr ⟨w, hw, hw2⟩
  · obtain ⟨i, hi, rfl⟩ := List.mem_iff_getElem.1 he
    obtain ⟨key, nd, a, ⟨z, hz, _⟩, _⟩ := h3 i (by omega)
    rw [List.getElem?_eq_getElem hi, Option.some.injEq] at a
    rw [a]
    exact isMap_of_child hz

theorem elastic_of_describes (h : Describes y c) (he : c.elastic = true) : ElasticJoints y c.ne c.kO (fun i j => some (c.K (c.kO * i + j))) c.dO
    (fun i j => some (c.D (c.dO * i + j))) c.dmO (fun i j => some (c.Dm (c.dmO * i + j))) (fun i => some (c.Mm i)) := by
  rcases h.ela with ⟨h0, _⟩ | ⟨_, _, el, l, h1, _, _, _, _, h2, h3, h4⟩
  · rw [he] at h0; cases h0
  · refine ⟨el, l, h1, h2, h3, fun i hi => ?_⟩
    obtain ⟨key, nd, a, b, _⟩ := h4 i hi
    exact ⟨key, nd, a, b⟩

/-- Reading the file again stores the values. -/
theorem start_ok (h : Describes y c) (name : String) : ∃ r, loadConfPar (some y) true { robotOf c with name := name } = .ok 1 r ∧
    State c (Key.symMat c) r ∧ r.name = name ∧ r.funArgs = [] ∧ Consistent c.n (r.arg "par_DYN") (r.arg "par_REG") ∧ r.model = (robotOf c).model := by
  obtain ⟨r₀, hr₀⟩ : ∃ r₀ : Robot, r₀ = { robotOf c with name := name } := ⟨_, rfl⟩
  have f1 : r₀.n = c.n := by rw [hr₀]; rfl
  have f2 : r₀.ne = c.ne := by rw [hr₀]; rfl
  have f3 : r₀.elastic = c.elastic := by rw [hr₀]; rfl
  have f4 : r₀.dlI = c.dlO := by rw [hr₀]; rfl
  have f5 : r₀.kI = c.kO := by rw [hr₀]; rfl
  have f6 : r₀.dI = c.dO := by rw [hr₀]; rfl
  have f7 : r₀.dmI = c.dmO := by rw [hr₀]; rfl
  have f8 : r₀.symb = (robotOf c).symb := by rw [hr₀]
  have f9 : r₀.model = (robotOf c).model := by rw [hr₀]
  have f10 : r₀.args = (robotOf c).args := by rw [hr₀]
  have f11 : r₀.types = c.types := by rw [hr₀]; rfl
  have f12 : r₀.funArgs = [] := by rw [hr₀]; rfl
  have f13 : r₀.name = name := by rw [hr₀]
  have g1 : r₀.dlOrd = c.dlO := by simp [Robot.dlOrd, f4]
  have g2 : r₀.kOrd = c.kO := by simp [Robot.kOrd, f5]
  have g3 : r₀.dOrd = c.dO := by simp [Robot.dOrd, f6]
  have g4 : r₀.dmOrd = c.dmO := by simp [Robot.dmOrd, f7]
  rw [← hr₀]
  have hs : LocSizes r₀ := by
    unfold LocSizes DlSize
    rw [f4, f5, f6, f7]
    refine ⟨by positivity, by positivity, by positivity, by positivity⟩
  obtain ⟨r, e, x, a1, a2, a3, a4, a5⟩ := C39 r₀ y (fun i j => some (c.dyn (10 * i + j))) (fun i j => some (c.dl (c.dlO * i + j)))
    (fun i j => some (c.K (c.kO * i + j))) (fun i j => some (c.D (c.dO * i + j))) (fun i j => some (c.Dm (c.dmO * i + j))) (fun i => some (c.Mm i))
    hs (by rw [f1, g1]; exact dynamics_of_describes h) (by rw [f3, f2, g2, g3, g4]; exact elastic_of_describes h)
    (by rw [f1]; unfold Robot.arg; rw [f10]; exact regArg_robotOf c)
  rw [f1] at a1 a2 a4
  rw [f2, f3] at a3
  rw [g1] at a2 a5
  rw [g2, g3, g4] at a3 a5
  rw [f3] at a5
  have hfr : ∀ k : Key, (k = .DYN → False) → (k = .Dl → c.dlO = 0) → (k = .K → c.kO = 0) → (k = .D → c.dO = 0) → (k = .Dm → c.dmO = 0) →
      (k = .Mm → c.elastic = false) → r.arg k.str = (robotOf c).arg k.str := by
    intro k k1 k2 k3 k4 k5 k6
    have hi : ∀ k', k.str = Key.str k' → k = k' := fun k' e => Key.str_inj e
    have := a5 k.str (fun e => k1 (hi .DYN e)) (by cases k <;> decide) (fun e => k2 (hi .Dl e)) (fun e => k3 (hi .K e)) (fun e => k4 (hi .D e))
      (fun e => k5 (hi .Dm e)) (fun e => k6 (hi .Mm e))
    unfold Robot.arg SMap.get
    rw [this, f10]
  refine ⟨r, e, ⟨⟨?_, ?_, ?_, ?_, ?_, ?_, ?_, ?_, ?_⟩, fun k => ?_, fun k => ?_⟩, ?_, ?_, a4, by rw [x]; exact f9⟩
  · rw [x]; exact f1
  · rw [x]; exact f2
  · rw [x]; exact f3
  · rw [x]; exact f11
  · rw [x]; exact f5
  · rw [x]; exact f6
  · rw [x]; exact f4
  · rw [x]; exact f7
  · rw [x]; exact f8
  · rw [x]
    show r₀.model.find _ = _
    rw [f9]; exact find_model c k
  · have hela : c.elastic = false → c.kO = 0 ∧ c.dO = 0 ∧ c.dmO = 0 := by
      intro h0
      rcases h.ela with ⟨_, _, b⟩ | ⟨h1, _⟩
      · exact b
      · rw [h0] at h1; cases h1
    by_cases hk : k ∈ [Key.DYN, .Dl, .K, .D, .Dm, .Mm]
    · simp only [List.mem_cons, List.not_mem_nil, or_false] at hk
      rcases hk with rfl | rfl | rfl | rfl | rfl | rfl
      · exact nums_of_rows a1
      · rcases Nat.eq_zero_or_pos c.dlO with h0 | h0
        · rw [hfr .Dl (fun h => nomatch h) (fun _ => h0) (fun h => nomatch h) (fun h => nomatch h) (fun h => nomatch h) (fun h => nomatch h)]
          show (robotOf c).arg "par_Dl" = _
          rw [(arg_empty c).1 h0]
          simp [Key.size, h0, nums]
        · exact nums_of_rows (a2 h0)
      · rcases Nat.eq_zero_or_pos c.kO with h0 | h0
        · rw [hfr .K (fun h => nomatch h) (fun h => nomatch h) (fun _ => h0) (fun h => nomatch h) (fun h => nomatch h) (fun h => nomatch h)]
          show (robotOf c).arg "par_K" = _
          rw [(arg_empty c).2.1 h0]
          simp [Key.size, h0, nums]
        · have hel : c.elastic = true := by
            cases hh : c.elastic
            · have := (hela hh).1; omega
            · rfl
          have := nums_of_rows ((a3 hel).1 h0)
          simp only [Key.size, hel, if_true]
          exact this
      · rcases Nat.eq_zero_or_pos c.dO with h0 | h0
        · rw [hfr .D (fun h => nomatch h) (fun h => nomatch h) (fun h => nomatch h) (fun _ => h0) (fun h => nomatch h) (fun h => nomatch h)]
          show (robotOf c).arg "par_D" = _
          rw [(arg_empty c).2.2.1 h0]
          simp [Key.size, h0, nums]
        · have hel : c.elastic = true := by
            cases hh : c.elastic
            · have := (hela hh).2.1; omega
            · rfl
          have := nums_of_rows ((a3 hel).2.1 h0)
          simp only [Key.size, hel, if_true]
          exact this
      · rcases Nat.eq_zero_or_pos c.dmO with h0 | h0
        · rw [hfr .Dm (fun h => nomatch h) (fun h => nomatch h) (fun h => nomatch h) (fun h => nomatch h) (fun _ => h0) (fun h => nomatch h)]
          show (robotOf c).arg "par_Dm" = _
          rw [(arg_empty c).2.2.2 h0]
          simp [Key.size, h0, nums]
        · have hel : c.elastic = true := by
            cases hh : c.elastic
            · have := (hela hh).2.2; omega
            · rfl
          have := nums_of_rows ((a3 hel).2.2.1 h0)
          simp only [Key.size, hel, if_true]
          exact this
      · cases hel : c.elastic
        · rw [hfr .Mm (fun h => nomatch h) (fun h => nomatch h) (fun h => nomatch h) (fun h => nomatch h) (fun h => nomatch h) (fun _ => hel)]
          have := arg_absent c hel .Mm (by decide)
          unfold Robot.arg SMap.get
          rw [this]
          simp [Key.size, hel, nums]
        · have h0 := (a3 hel).2.2.2
          have : Rows (r.arg "par_Mm") c.ne 1 fun i j => some (c.Mm (1 * i + j)) := by
            refine ⟨h0.1, fun i hi j hj => ?_⟩
            obtain rfl : j = 0 := by omega
            rw [h0.2 i hi 0 hj]
            simp
          have := nums_of_rows this
          simp only [Key.size, hel, if_true]
          rw [Nat.mul_one] at this
          exact this
    · rw [hfr k, arg_robotOf c k hk]
      all_goals (rintro rfl; exact absurd (by decide) hk)
  · rw [x]; exact f13
  · rw [x]; exact f12

end Robot

end

end Thunder
