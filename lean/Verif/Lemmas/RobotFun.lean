import Verif.Lemmas.RobotInv

/-!
# Class `Robot`: `get` and `add_function`
-/

open scoped Classical

namespace Thunder

theorem mem_elements {A : SX} {e : Expr} (h : e ∈ A.elements) : ∃ i < A.rows, ∃ j < A.cols, e = A.e i j := by
  obtain ⟨k, hk, rfl⟩ := List.mem_map.mp h
  have hk := List.mem_range.mp hk
  have hr : 0 < A.rows := by
    rcases Nat.eq_zero_or_pos A.rows with h0 | h0
    · rw [h0] at hk; simp at hk
    · exact h0
  exact ⟨_, Nat.mod_lt _ hr, _, Nat.div_lt_of_lt_mul hk, rfl⟩

theorem length_elements (A : SX) : A.elements.length = A.rows * A.cols := by simp [SX.elements]

theorem index_lt {r c i j : ℕ} (hi : i < r) (hj : j < c) : i + r * j < r * c :=
  calc i + r * j < r + r * j := by omega
    _ = r * (j + 1) := by ring
    _ ≤ r * c := Nat.mul_le_mul_left _ hj

theorem getElem?_elements {A : SX} {i j : ℕ} (hi : i < A.rows) (hj : j < A.cols) : A.elements[i + A.rows * j]? = some (A.e i j) := by
  unfold SX.elements
  rw [List.getElem?_map, List.getElem?_range (index_lt hi hj)]
  simp only [Option.map_some, Option.some.injEq]
  rw [Nat.add_mul_mod_self_left, Nat.mod_eq_of_lt hi, Nat.add_mul_div_left _ _ (by omega), Nat.div_eq_of_lt hi, Nat.zero_add]

/-! ## Building a function -/

theorem mapM_symOf (vs : List Var) : (vs.map Expr.var).mapM symOf = some vs := by
  induction vs with
  | nil => rfl
  | cons v vs ih => rw [List.map_cons, List.mapM_cons, ih]; rfl

theorem mapM_mapM_symOf (vs : List (List Var)) : (vs.map fun l => l.map Expr.var).mapM (fun l => l.mapM symOf) = some vs := by
  induction vs with
  | nil => rfl
  | cons v vs ih => rw [List.map_cons, List.mapM_cons, ih, mapM_symOf]; rfl

theorem mkFun_ok {nm : String} (hnm : checkName nm = true) {vs : List (List Var)} {A : SX} (hn : vs.flatten.Nodup)
    (hf : ∀ i < A.rows, ∀ j < A.cols, (A.e i j).fv ⊆ {v | v ∈ vs.flatten}) : mkFun nm (vs.map fun l => l.map Expr.var) A = some ⟨vs, A⟩ := by
  unfold mkFun
  rw [if_pos hnm, mapM_mapM_symOf]
  refine if_pos ⟨hn, fun e he => ?_⟩
  obtain ⟨i, hi, j, hj, rfl⟩ := mem_elements he
  exact hf i hi j hj

theorem bound_of_mem {l : List (Var × Num)} {ρ : Var → ℝ} (hl : ∀ p ∈ l, p.2 = some (ρ p.1)) {v : Var} (hv : ∃ p ∈ l, p.1 = v) :
    bound l v = some (some (ρ v)) := by
  unfold bound
  have hs : (List.find? (fun p : Var × Num => p.1 == v) l).isSome := by
    rw [List.find?_isSome]
    obtain ⟨p, h1, h2⟩ := hv
    exact ⟨p, h1, by simp [h2]⟩
  obtain ⟨p, hp⟩ := Option.isSome_iff_exists.mp hs
  have h1 := hl p (List.mem_of_find?_eq_some hp)
  have h2 : p.1 = v := by simpa using List.find?_some hp
  rw [hp, Option.map_some, h1, h2]

/-- Calling a function with the values of its input symbols. -/
theorem call_ok {vs : List (List Var)} {A : SX} {vals : List (List Num)} {ρ : Var → ℝ}
    (hf : ∀ i < A.rows, ∀ j < A.cols, (A.e i j).fv ⊆ {v | v ∈ vs.flatten})
    (hv : List.Forall₂ (fun l x => x = l.map fun v => some (ρ v)) vs vals) :
    CFun.call ⟨vs, A⟩ vals = some (A.elements.map fun e => some (e.eval ρ)) := by
  have key : ∀ (vs : List (List Var)) (vals : List (List Num)), List.Forall₂ (fun l x => x = l.map fun v => some (ρ v)) vs vals →
      ((List.zip vs vals).mapM fun p => (fitInput p.1.length p.2).map fun v => List.zip p.1 v) =
        some (vs.map fun l => l.map fun v => (v, (some (ρ v) : Num))) := by
    intro vs vals h
    induction h with
    | nil => rfl
    | @cons l x vs vals h1 _ ih =>
      rw [List.zip_cons_cons, List.mapM_cons, ih, h1]
      simp only [fitInput, List.length_map, if_true, Option.map_some, Option.pure_def, Option.bind_eq_bind, Option.bind_some, List.map_cons]
      congr 2
      rw [List.zip_map_right]
      clear h1
      induction l with
      | nil => rfl
      | cons a l ih => simp only [List.zip_cons_cons, List.map_cons, ih]; rfl
  unfold CFun.call
  rw [if_pos hv.length_eq.symm, key vs vals hv, Option.map_some]
  congr 1
  unfold CFun.evalWith
  have hall : ∀ p ∈ (vs.map fun l => l.map fun v => (v, (some (ρ v) : Num))).flatten, p.2 = some (ρ p.1) := by
    intro p hp
    obtain ⟨l, hl, hp⟩ := List.mem_flatten.mp hp
    obtain ⟨l', _, rfl⟩ := List.mem_map.mp hl
    obtain ⟨v, _, rfl⟩ := List.mem_map.mp hp
    rfl
  rw [if_pos fun p hp => by rw [hall p hp]; simp]
  refine List.map_congr_left fun e he => ?_
  congr 1
  refine Expr.eval_congr fun v hve => ?_
  obtain ⟨i, hi, j, hj, rfl⟩ := mem_elements he
  have hvm : v ∈ vs.flatten := hf i hi j hj hve
  rw [bound_of_mem hall]
  · rfl
  · obtain ⟨l, hl, hm⟩ := List.mem_flatten.mp hvm
    exact ⟨(v, some (ρ v)), List.mem_flatten.mpr ⟨_, List.mem_map.mpr ⟨l, hl, rfl⟩, List.mem_map.mpr ⟨v, hm, rfl⟩⟩, rfl⟩

namespace Robot

open Act Spec

theorem flatten_if {γ : Type} (l : List ℕ) (c : ℕ → Prop) [DecidablePred c] (g : ℕ → γ) :
    (l.map fun i => if c i then [] else [g i]).flatten = (l.filter fun i => ¬ c i).map g := by
  induction l with
  | nil => rfl
  | cons a l ih =>
    rw [List.map_cons, List.flatten_cons, ih]
    by_cases h : c a <;> simp [h]

theorem pickRows_selected {fl : List ℤ} {A : SX} {vs : List Var} (h : Selected fl A vs) : pickRows fl A = some (vs.map Expr.var) := by
  obtain ⟨h1, h2⟩ := h
  unfold pickRows
  rw [Wrap.mapM_eq_map (g := fun i => if fl.getD i 0 = 0 then [] else [A.e i 0])]
  · rw [Option.map_some, flatten_if, ← h2]
  · intro i hi
    have hi := List.mem_range.mp hi
    rw [List.getElem?_eq_getElem (by omega), Option.map_some, List.getD_eq_getElem?_getD, List.getElem?_eq_getElem (by omega)]
    rfl

/-- The same robot up to entries of `symb` and `model` inserted with empty values. -/
structure Collected (r r' : Robot) : Prop where
  eq : r' = { r with symb := r'.symb, model := r'.model }
  flags : ∀ k, r'.flags k = r.flags k
  mod : ∀ k, r'.mod k = r.mod k
  find : ∀ k, r.model.has k = true → r'.model.find k = r.model.find k

theorem collect_ok : ∀ {fargs : List String} {vs : List (List Var)} {r : Robot},
    List.Forall₂ (fun a v => Selected (r.flags a) (r.mod a) v) fargs vs →
    ∃ r', collect fargs r = .ok (vs.map fun l => l.map Expr.var) r' ∧ Collected r r' := by
  intro fargs
  induction fargs with
  | nil => intro vs r h; cases h; exact ⟨r, rfl, rfl, fun _ => rfl, fun _ => rfl, fun _ _ => rfl⟩
  | cons a fargs ih =>
    intro vs r h
    cases h with
    | cons h1 h2 =>
      rename_i v vs
      have hfl : ∀ k, Robot.flags { r with symb := r.symb.ins a [], model := r.model.ins a (SX.zeros 0 0) } k = r.flags k :=
        fun k => SMap.get_ins_default _ _ _ _
      have hmo : ∀ k, Robot.mod { r with symb := r.symb.ins a [], model := r.model.ins a (SX.zeros 0 0) } k = r.mod k :=
        fun k => SMap.get_ins_default _ _ _ _
      obtain ⟨r', e, hc⟩ := ih (vs := vs) (r := { r with symb := r.symb.ins a [], model := r.model.ins a (SX.zeros 0 0) })
        (h2.imp fun b w hb => by rw [hfl, hmo]; exact hb)
      refine ⟨r', ?_, ?_, fun k => (hc.flags k).trans (hfl k), fun k => (hc.mod k).trans (hmo k), fun k hk => ?_⟩
      · unfold collect
        rw [bind_ok (modify_run _ _), bind_ok (read_run _), hfl, hmo, pickRows_selected h1, bind_ok (ofIdx_some _ _), bind_ok e]
        rfl
      · rw [hc.eq]
      · rw [hc.find k ((has_ins _ _ _ _).2 (.inr hk))]
        simp only
        rw [SMap.find_ins]
        split_ifs with e
        · subst e
          unfold SMap.has at hk
          obtain ⟨x, hx⟩ := Option.isSome_iff_exists.mp hk
          rw [hx]; rfl
        · rfl

/-- What a successful `add_function` leaves. -/
structure Added (f : String) (expr : SX) (fargs : List String) (descr : String) (vs : List (List Var)) (r r' : Robot) : Prop where
  eq : r' = { r with
    symb := r'.symb, model := r'.model, funs := r.funs.put f ⟨vs, expr⟩, funArgs := r.funArgs.put f fargs, funDescr := r.funDescr.put f descr }
  flags : ∀ k, r'.flags k = r.flags k
  modf : r'.model.find f = some expr
  mod : ∀ k, k ≠ f → r'.mod k = r.mod k
  find : ∀ k, k ≠ f → r.model.has k = true → r'.model.find k = r.model.find k

theorem addFunction_ok {r : Robot} {f : String} {expr : SX} {fargs : List String} {descr : String} {ow : Bool} {vs : List (List Var)}
    (hnm : checkName (cName r.name f) = true) (how : ow = true ∨ r.model.has f = false)
    (hs : List.Forall₂ (fun a v => Selected (r.flags a) (r.mod a) v) fargs vs) (hf : f ∉ fargs) (hn : vs.flatten.Nodup) (hfv : ∀ i < expr.rows, ∀ j < expr.cols, (expr.e i j).fv ⊆ {v | v ∈ vs.flatten}) :
    ∃ r', addFunction f expr fargs descr ow r = .ok 1 r' ∧ Added f expr fargs descr vs r r' := by
  have hcond : (!ow && r.model.has f) = false := by rcases how with h | h <;> simp [h]
  have hmo : ∀ k, k ≠ f → Robot.mod { r with model := r.model.put f expr, funArgs := r.funArgs.put f fargs, funDescr := r.funDescr.put f descr } k
      = r.mod k := fun k hk => SMap.get_put_ne _ _ _ (Ne.symm hk)
  have hs' : List.Forall₂ (fun a v => Selected
      (Robot.flags { r with model := r.model.put f expr, funArgs := r.funArgs.put f fargs, funDescr := r.funDescr.put f descr } a)
      (Robot.mod { r with model := r.model.put f expr, funArgs := r.funArgs.put f fargs, funDescr := r.funDescr.put f descr } a) v) fargs vs := by
    clear hn hfv
    induction hs with
    | nil => exact .nil
    | @cons a v fargs vs h1 h2 ih =>
      refine .cons ?_ ?_
      · rw [hmo a (fun e => hf (e ▸ List.mem_cons_self))]; exact h1
      · refine List.Forall₂.imp (fun b w hb => hb) ?_
        refine (List.forall₂_iff_get.mpr ⟨h2.length_eq, fun i h h' => ?_⟩)
        have := (List.forall₂_iff_get.mp h2).2 i h h'
        rw [hmo _ (fun e => hf (e ▸ List.mem_cons_of_mem _ (List.get_mem _ _)))]
        exact this
  obtain ⟨r', e, hc⟩ := collect_ok hs'
  refine ⟨{ r' with funs := r'.funs.put f ⟨vs, expr⟩ }, ?_, ?_, hc.flags, ?_, fun k hk => (hc.mod k).trans (hmo k hk), fun k hk hk' => ?_⟩
  · unfold addFunction
    rw [bind_ok (read_run _), hcond]
    simp only [Bool.false_eq_true, if_false]
    rw [bind_ok (modify_run _ _), bind_ok e, mkFun_ok hnm hn hfv, bind_ok (ofExc_some _ _), bind_ok (modify_run _ _)]
    rfl
  · rw [hc.eq]
  · simp only
    rw [hc.find f ((has_put _ _ _ _).2 (.inl rfl))]
    exact SMap.find_put_same _ _ _
  · simp only
    rw [hc.find k ((has_put _ _ _ _).2 (.inr hk'))]
    exact SMap.find_put_ne _ _ (Ne.symm hk)

/-- A function that was added has a name accepted by CasADi. -/
theorem addFunction_name {r r' : Robot} {f : String} {expr : SX} {fargs : List String} {descr : String} {ow : Bool} {v : ℤ}
    (e : addFunction f expr fargs descr ow r = .ok v r') (hv : v ≠ 0 ∨ ow = true) : checkName (cName r.name f) = true := by
  unfold addFunction at e
  rw [bind_ok (read_run _)] at e
  split_ifs at e with h
  · rcases hv with hv | rfl
    · exact absurd (Res.ok.inj e).1.symm hv
    · simp at h
  · rw [bind_ok (modify_run _ _)] at e
    generalize ({ r with model := r.model.put f expr, funArgs := r.funArgs.put f fargs, funDescr := r.funDescr.put f descr } : Robot) = r₁ at e
    cases hc : collect fargs r₁ with
    | yaml r₂ => rw [bind_yaml hc] at e; cases e
    | exc r₂ => rw [bind_exc hc] at e; cases e
    | ub => rw [bind_ub hc] at e; cases e
    | ok ls r₂ =>
      rw [bind_ok hc] at e
      by_contra hn
      rw [show mkFun (cName r.name f) ls expr = none from if_neg hn] at e
      cases e

/-- `get` of a function whose inputs are the symbols `vs`. -/
theorem get_ok {r : Robot} {f : String} {A : SX} {fargs : List String} {vs : List (List Var)} {ρ : Var → ℝ} (h1 : r.funArgs.find f = some fargs)
    (h2 : r.funs.find f = some ⟨vs, A⟩) (h3 : r.model.find f = some A)
    (hf : ∀ i < A.rows, ∀ j < A.cols, (A.e i j).fv ⊆ {v | v ∈ vs.flatten})
    (hv : List.Forall₂ (fun a l => r.arg a = l.map fun v => some (ρ v)) fargs vs) :
    ∃ r', Robot.get f r = .ok ⟨A.rows, A.cols, A.elements.map fun e => some (e.eval ρ)⟩ r' ∧ Sim r r' := by
  have hm : r.mod f = A := by simp [Robot.mod, SMap.get, h3]
  have hins : r.model.ins f (SX.zeros 0 0) = r.model := by simp [SMap.ins, SMap.has, h3]
  refine ⟨fargs.foldl touchArg r, ?_, sim_touches fargs r⟩
  unfold Robot.get
  rw [bind_ok (read_run _), h1]
  simp only
  rw [bind_ok (modify_run _ _), h2, bind_ok (ofIdx_some _ _), call_ok (ρ := ρ) hf, bind_ok (ofExc_some _ _), hm]
  · rw [fill, if_pos (by rw [List.length_map, length_elements]), bind_ok (ofIdx_some _ _)]
    rw [List.length_map, length_elements, Nat.sub_self, List.replicate_zero, List.append_nil, hins]
    rfl
  · clear h1 h2 hf
    induction hv with
    | nil => exact .nil
    | cons h _ ih => exact .cons h ih

end Robot

end Thunder
