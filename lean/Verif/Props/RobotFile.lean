import Verif.Props.Robot

/-!
# Class `Robot`, files: C39, C42, C43
-/

namespace Thunder

open Robot Spec Act

/-! ## C39 -/

theorem withLoc_ok {body : Act Loc Unit} {l l' : Loc} {r : Robot} (e : body l = .ok () l') : withLoc body l r = .ok l' r := by
  simp [withLoc, e]

/-- C39: from a well-formed file, `load_conf_par` stores the parameters link by link (further links in the file are ignored), the parameters of the
elastic joints likewise, makes `par_REG` the REG image of `par_DYN`, and changes nothing else. -/
theorem C39 (r : Robot) (y : Yaml) (P DL K D Dm : ℕ → ℕ → Num) (Mm : ℕ → Num) (hs : LocSizes r) (hd : DynamicsSection y r.n P r.dlOrd DL)
    (he : r.elastic = true → ElasticJoints y r.ne r.kOrd K r.dOrd D r.dmOrd Dm Mm) (hr : (r.arg "par_REG").length = 10 * r.n) :
    ∃ r', loadConfPar (some y) true r = .ok 1 r' ∧ r' = { r with args := r'.args } ∧
      Rows (r'.arg "par_DYN") r.n 10 P ∧ (0 < r.dlOrd → Rows (r'.arg "par_Dl") r.n r.dlOrd DL) ∧
      (r.elastic = true → (0 < r.kOrd → Rows (r'.arg "par_K") r.ne r.kOrd K) ∧ (0 < r.dOrd → Rows (r'.arg "par_D") r.ne r.dOrd D) ∧
        (0 < r.dmOrd → Rows (r'.arg "par_Dm") r.ne r.dmOrd Dm) ∧ Rows (r'.arg "par_Mm") r.ne 1 fun i _ => Mm i) ∧
      Consistent r.n (r'.arg "par_DYN") (r'.arg "par_REG") ∧
      ∀ k, k ≠ "par_DYN" → k ≠ "par_REG" → (k = "par_Dl" → r.dlOrd = 0) → (k = "par_K" → r.kOrd = 0) → (k = "par_D" → r.dOrd = 0) →
        (k = "par_Dm" → r.dmOrd = 0) → (k = "par_Mm" → r.elastic = false) → r'.args.find k = r.args.find k := by
  obtain ⟨l, e, h1, h2, h3⟩ := confBody_ok hd he
  have hf := find_storeConf l r
  have ho := argsOnly_storeConf l r
  generalize hS : storeConf l r = S at hf ho
  have hn : S.n = r.n := by rw [ho]
  have hdyn : S.arg "par_DYN" = l.p := arg_of_find ((hf _).trans (by simp))
  have hreg : S.arg "par_REG" = r.arg "par_REG" := by
    unfold Robot.arg SMap.get
    rw [hf]; simp
  have hup := updateREG_ok (r := S) (by rw [hdyn, hn]; exact h1.1) (by rw [hreg, hn]; exact hr)
  have hfin : ∀ k, ((S.touchArg "par_DYN").setArgs "par_REG" (regOfDyn S.n (S.arg "par_DYN"))).arg k =
      if "par_REG" = k then regOfDyn r.n l.p else S.arg k := by
    intro k
    rw [arg_setArgs, arg_touch, hdyn, hn]
  refine ⟨(S.touchArg "par_DYN").setArgs "par_REG" (regOfDyn S.n (S.arg "par_DYN")), ?_, ?_, ?_, fun h0 => ?_, fun h0 => ⟨fun h0 => ?_,
    fun h0 => ?_, fun h0 => ?_, ?_⟩, ?_, fun k k1 k2 k3 k4 k5 k6 k7 => ?_⟩
  · unfold loadConfPar
    rw [bind_ok (read_run r), if_pos hs, bind_ok (ofExc_some _ _), bind_ok (withLoc_ok e), bind_ok (modify_run _ _), hS, if_pos rfl, bind_ok hup]
    rfl
  · show _ = _
    exact ho.trans (show ArgsOnly S _ from rfl)
  · rw [hfin, if_neg (by decide), hdyn]; exact h1
  · rw [hfin, if_neg (by decide), arg_of_find (v := l.dl) ((hf _).trans (by simp [h0]))]; exact h2
  · rw [hfin, if_neg (by decide), arg_of_find (v := l.k) ((hf _).trans (by simp [h0]))]; exact (h3 ‹_›).1
  · rw [hfin, if_neg (by decide), arg_of_find (v := l.d) ((hf _).trans (by simp [h0]))]; exact (h3 ‹_›).2.1
  · rw [hfin, if_neg (by decide), arg_of_find (v := l.dm) ((hf _).trans (by simp [h0]))]; exact (h3 ‹_›).2.2.1
  · rw [hfin, if_neg (by decide), arg_of_find (v := l.mm) ((hf _).trans (by simp [h0]))]; exact (h3 ‹_›).2.2.2
  · rw [hfin, if_neg (by decide), hfin, if_pos rfl, hdyn]
    exact Wrap.consistent_of_eq h1.1 (regOfDynW_eq _ _).symm
  · have hh : S.args.has "par_DYN" = true := by
      unfold SMap.has
      rw [hf]; simp
    rw [find_setArgs, if_neg (Ne.symm k2), touch_of_has hh, hf]
    rw [if_neg (fun e => by simp [k7 e.2.symm] at e), if_neg (fun e => by simp [k6 e.2.symm] at e), if_neg (fun e => by simp [k5 e.2.symm] at e),
      if_neg (fun e => by simp [k4 e.2.symm] at e), if_neg (fun e => by simp [k3 e.2.symm] at e), if_neg (Ne.symm k1)]

namespace Ex

/-- A YAML map of scalars. -/
def fields (l : List (String × ℝ)) : Yaml := .map (l.map fun e => (some e.1, Yaml.ofD (some e.2)))

/-- A configuration with two links, for a robot with one joint. -/
def twoLinks : Yaml := .map [(some "num_joints", Yaml.ofD (some 1)), (some "dynamics", .map [
  (some "link1", .map [(some "inertial", fields [("mass", 5), ("CoM_x", 1), ("CoM_y", 2), ("CoM_z", 3), ("Ixx", 4), ("Ixy", 0), ("Ixz", 0),
    ("Iyy", 6), ("Iyz", 0), ("Izz", 7)])]),
  (some "link2", .map [])])]

def parLink : ℕ → Num := fun k => some ((([5, 1, 2, 3, 4, 0, 0, 6, 0, 7] : List ℝ)[k]?).getD 0)

theorem child_append (k : String) (z : Yaml) (l₁ l₂ : List (Option String × Yaml)) (h : ∀ e ∈ l₁, e.1 ≠ some k) :
    Child (.map (l₁ ++ (some k, z) :: l₂)) k z := ⟨l₁, l₂, rfl, h⟩

theorem number_fields (l₁ l₂ : List (String × ℝ)) (k : String) (x : ℝ) (h : ∀ e ∈ l₁, e.1 ≠ k) : Number (fields (l₁ ++ (k, x) :: l₂)) k (some x) := by
  refine ⟨Yaml.ofD (some x), ⟨l₁.map fun e => (some e.1, Yaml.ofD (some e.2)), l₂.map fun e => (some e.1, Yaml.ofD (some e.2)), ?_, ?_⟩, rfl⟩
  · simp [fields]
  · intro e he
    obtain ⟨a, ha, rfl⟩ := List.mem_map.mp he
    simpa using h a ha

example : DynamicsSection twoLinks rob.n (fun _ => parLink) rob.dlOrd (fun _ _ => some 0) ∧ LocSizes rob ∧
    (rob.arg "par_REG").length = 10 * rob.n := by
  refine ⟨⟨_, child_append "dynamics" _ [(some "num_joints", Yaml.ofD (some 1))] [] (by simp), by simp [rob], fun i hi => ?_, by simp⟩, ?_, ?_⟩
  · have : i = 0 := by simp [rob] at hi; omega
    subst this
    refine ⟨_, _, rfl, ⟨_, child_append "inertial" _ [] [] (by simp), ?_⟩, .inl ⟨⟨_, rfl, by simp⟩, fun _ _ => rfl⟩⟩
    exact ⟨number_fields [] _ "mass" 5 (by simp), number_fields [_] _ "CoM_x" 1 (by simp), number_fields [_, _] _ "CoM_y" 2 (by simp),
      number_fields [_, _, _] _ "CoM_z" 3 (by simp), number_fields [_, _, _, _] _ "Ixx" 4 (by simp), number_fields [_, _, _, _, _] _ "Ixy" 0 (by simp),
      number_fields [_, _, _, _, _, _] _ "Ixz" 0 (by simp), number_fields [_, _, _, _, _, _, _] _ "Iyy" 6 (by simp),
      number_fields [_, _, _, _, _, _, _, _] _ "Iyz" 0 (by simp), number_fields [_, _, _, _, _, _, _, _, _] _ "Izz" 7 (by simp)⟩
  · simp [LocSizes, DlSize, rob]
  · simp [rob, Robot.arg, SMap.get, SMap.find]

end Ex

/-! ## C42 -/

/-- The tree written by `save_par_REG` has the single key `dynamics`. -/
theorem regTree_ok {n : ℕ} {par : List Num} (h : par.length = 10 * n) : ∃ d, regTree n par = some (.map [(some "dynamics", d)]) := by
  have inner : ∀ i < n, ∀ (ks : List ℕ) (y : Yaml), (∀ k ∈ ks, k < 10) →
      ∃ z, ks.foldlM (fun y k => (par[10 * i + k]?).map fun x => y.setKey ((keys "m_CoM_").getD k "") (Yaml.ofD x)) y = some z := by
    intro i hi ks
    induction ks with
    | nil => intro y _; exact ⟨y, rfl⟩
    | cons k ks ih =>
      intro y hk
      have hlt : 10 * i + k < par.length := by have := hk k List.mem_cons_self; omega
      rw [List.foldlM_cons, List.getElem?_eq_getElem hlt]
      exact ih _ fun k' hk' => hk k' (List.mem_cons_of_mem _ hk')
  have outer : ∀ (is : List ℕ) (y : Yaml), (∀ i ∈ is, i < n) →
      ∃ z, is.foldlM (fun y i => (linkNode par i).map fun nd => y.setKey (linkName i) nd) y = some z := by
    intro is
    induction is with
    | nil => intro y _; exact ⟨y, rfl⟩
    | cons i is ih =>
      intro y hi
      obtain ⟨z, hz⟩ := inner i (hi i List.mem_cons_self) (List.range 10) Yaml.undef (fun k hk => List.mem_range.mp hk)
      have hl : linkNode par i = some (Yaml.undef.setKey "inertial" z) := by
        unfold linkNode
        rw [hz]; rfl
      rw [List.foldlM_cons, hl]
      exact ih _ fun i' hi' => hi i' (List.mem_cons_of_mem _ hi')
  obtain ⟨d, hd⟩ := outer (List.range n) Yaml.null (fun i hi => List.mem_range.mp hi)
  refine ⟨d, ?_⟩
  unfold regTree
  rw [hd]; rfl

/-- C42 fails for every state: `load_par_REG` looks for a section `inertial` which `save_par_REG` does not write, so loading the saved file sets
every entry of `par_REG` to zero (and `par_Dl` as well); `par_REG` is restored only if it was zero. -/
theorem C42_fails (r r₂ : Robot) (upd : Bool) (hr : (r.arg "par_REG").length = 10 * r.n) (hn : r₂.n = r.n) (hs : DlSize r₂)
    (hd₂ : (r₂.arg "par_DYN").length = 10 * r.n) :
    ∃ y r' r₃, saveParREG r = .ok y r' ∧ loadParREG (some y) upd r₂ = .ok (List.replicate (10 * r.n) (some 0)) r₃ ∧
      r₃.arg "par_REG" = List.replicate (10 * r.n) (some 0) ∧ (0 < r₂.dlOrd → r₃.arg "par_Dl" = List.replicate (r₂.dlOrd * r.n) (some 0)) ∧
      (r₃.arg "par_REG" = r.arg "par_REG" ↔ ∀ x ∈ r.arg "par_REG", x = some 0) := by
  obtain ⟨d, hd⟩ := regTree_ok hr
  have e1 : saveParREG r = .ok (.map [(some "dynamics", d)]) (r.touchArg "par_REG") := by
    unfold saveParREG
    rw [bind_ok (modify_run _ _), bind_ok (read_run _), arg_touch, show (r.touchArg "par_REG").n = r.n from rfl, hd, ofExc_some]
  have e2 : regBody r₂ (some (.map [(some "dynamics", d)])) (Loc.init r₂) = .ok () (Loc.init r₂) := by
    unfold regBody
    rw [bind_ok (ofYaml_some _ _), show (Yaml.map [(some "dynamics", d)]).getM "inertial" = some .undef by simp [Yaml.getM, Yaml.lookup],
      bind_ok (ofYaml_some _ _)]
    rfl
  have hp : (Loc.init r₂).p = List.replicate (10 * r.n) (some 0) := by simp [Loc.init, zeros, hn]
  have hdl : (Loc.init r₂).dl = List.replicate (r₂.dlOrd * r.n) (some 0) := by simp [Loc.init, zeros, hn]
  have key : List.replicate (10 * r.n) (some (0 : ℝ)) = r.arg "par_REG" ↔ ∀ x ∈ r.arg "par_REG", x = some 0 := by
    rw [eq_comm, List.eq_replicate_iff]
    exact ⟨fun h => h.2, fun h => ⟨hr, h⟩⟩
  generalize hS : (if 0 < (r₂.setArgs "par_REG" (Loc.init r₂).p).dlOrd then (r₂.setArgs "par_REG" (Loc.init r₂).p).setArgs "par_Dl" (Loc.init r₂).dl
    else r₂.setArgs "par_REG" (Loc.init r₂).p) = S
  have hSn : S.n = r.n := by rw [← hS]; split_ifs <;> exact hn
  have hreg : S.arg "par_REG" = (Loc.init r₂).p := by
    rw [← hS]
    split_ifs
    · rw [arg_setArgs, if_neg (by decide), arg_setArgs, if_pos rfl]
    · rw [arg_setArgs, if_pos rfl]
  have hdyn : S.arg "par_DYN" = r₂.arg "par_DYN" := by
    rw [← hS]
    split_ifs
    · rw [arg_setArgs, if_neg (by decide), arg_setArgs, if_neg (by decide)]
    · rw [arg_setArgs, if_neg (by decide)]
  have hDl : 0 < r₂.dlOrd → S.arg "par_Dl" = (Loc.init r₂).dl := by
    intro h0
    rw [← hS, if_pos (show 0 < (r₂.setArgs "par_REG" (Loc.init r₂).p).dlOrd from h0), arg_setArgs, if_pos rfl]
  have e3 : loadParREG (some (.map [(some "dynamics", d)])) upd r₂ = (if upd then do
      let _ ← updateDYN
      pure (Loc.init r₂).p
    else pure (Loc.init r₂).p : Act Robot (List Num)) S := by
    unfold loadParREG
    rw [bind_ok (read_run _), if_pos hs, bind_ok (ofExc_some _ _), bind_ok (withLoc_ok e2), bind_ok (modify_run _ _), bind_ok (modify_run _ _), hS]
  cases upd with
  | false =>
    refine ⟨_, _, S, e1, by rw [e3, ← hp]; rfl, hreg.trans hp, fun h0 => (hDl h0).trans hdl, ?_⟩
    rw [hreg, hp]; exact key
  | true =>
    have hup := updateDYN_ok (r := S) (by rw [hdyn, hSn]; exact hd₂) (by rw [hreg, hp, hSn]; simp)
    have hfin : ∀ k, k ≠ "par_DYN" → ((S.touchArg "par_REG").setArgs "par_DYN" (dynOfReg S.n (S.arg "par_REG"))).arg k = S.arg k := by
      intro k hk
      rw [arg_setArgs, if_neg (Ne.symm hk), arg_touch]
    refine ⟨_, _, (S.touchArg "par_REG").setArgs "par_DYN" (dynOfReg S.n (S.arg "par_REG")), e1, ?_, ?_, fun h0 => ?_, ?_⟩
    · rw [e3, if_pos rfl, bind_ok hup, ← hp]; rfl
    · rw [hfin _ (by decide), hreg, hp]
    · rw [hfin _ (by decide), hDl h0, hdl]
    · rw [hfin _ (by decide), hreg, hp]; exact key

/-- What holds: `load_par_REG` reads a file with a top-level section `inertial` (one node per link with the keys in regressor form and `Dl`),
link by link.  Missing for C42: `save_par_REG` does not write such a file. -/
theorem C42_partial (r : Robot) (y : Yaml) (P DL : ℕ → ℕ → Num) (hs : DlSize r) (hi : InertialSection y r.n P r.dlOrd DL) :
    ∃ v r', loadParREG (some y) false r = .ok v r' ∧ r'.arg "par_REG" = v ∧ Rows v r.n 10 P ∧ (0 < r.dlOrd → Rows (r'.arg "par_Dl") r.n r.dlOrd DL) ∧
      ∀ k, k ≠ "par_REG" → k ≠ "par_Dl" → r'.args.find k = r.args.find k := by
  obtain ⟨l, e, h1, h2⟩ := regBody_ok hi
  have e3 : loadParREG (some y) false r = .ok l.p (if 0 < (r.setArgs "par_REG" l.p).dlOrd then (r.setArgs "par_REG" l.p).setArgs "par_Dl" l.dl
      else r.setArgs "par_REG" l.p) := by
    unfold loadParREG
    rw [bind_ok (read_run _), if_pos hs, bind_ok (ofExc_some _ _), bind_ok (withLoc_ok e), bind_ok (modify_run _ _), bind_ok (modify_run _ _)]
    rfl
  refine ⟨_, _, e3, ?_, h1, fun h0 => ?_, fun k h3 h4 => ?_⟩
  · split_ifs
    · rw [arg_setArgs, if_neg (by decide), arg_setArgs, if_pos rfl]
    · rw [arg_setArgs, if_pos rfl]
  · rw [if_pos (show 0 < (r.setArgs "par_REG" l.p).dlOrd from h0), arg_setArgs, if_pos rfl]; exact h2
  · split_ifs
    · rw [find_setArgs, if_neg (Ne.symm h4), find_setArgs, if_neg (Ne.symm h3)]
    · rw [find_setArgs, if_neg (Ne.symm h3)]

namespace Ex

/-- A state for which the round trip loses the parameters. -/
example : DlSize rob ∧ (rob.arg "par_REG").length = 10 * rob.n ∧ (rob.arg "par_DYN").length = 10 * rob.n ∧
    ∃ r : Robot, (r.arg "par_REG").length = 10 * r.n ∧ ¬ ∀ x ∈ r.arg "par_REG", x = some 0 := by
  refine ⟨by simp [DlSize, rob], by simp [rob, Robot.arg, SMap.get, SMap.find], by simp [rob, Robot.arg, SMap.get, SMap.find],
    rob.setArgs "par_REG" (List.replicate 10 (some 1)), ?_, ?_⟩
  · rw [arg_setArgs, if_pos rfl]; simp [rob, setArgs]
  · rw [arg_setArgs, if_pos rfl]
    intro h
    have := h (some 1) (by simp)
    simp at this

/-- A file which `load_par_REG` reads. -/
def regFile : Yaml := .map [(some "inertial", .map [
  (some "link1", fields [("mass", 5), ("m_CoM_x", 1), ("m_CoM_y", 2), ("m_CoM_z", 3), ("Ixx", 4), ("Ixy", 0), ("Ixz", 0),
    ("Iyy", 6), ("Iyz", 0), ("Izz", 7)])])]

example : InertialSection regFile rob.n (fun _ => parLink) rob.dlOrd (fun _ _ => some 0) := by
  refine ⟨_, child_append "inertial" _ [] [] (by simp), by simp [rob], fun i hi => ?_⟩
  have : i = 0 := by simp [rob] at hi; omega
  subst this
  refine ⟨_, _, rfl, ?_, .inl ⟨⟨_, rfl, by simp⟩, fun _ _ => rfl⟩⟩
  exact ⟨number_fields [] _ "mass" 5 (by simp), number_fields [_] _ "m_CoM_x" 1 (by simp), number_fields [_, _] _ "m_CoM_y" 2 (by simp),
    number_fields [_, _, _] _ "m_CoM_z" 3 (by simp), number_fields [_, _, _, _] _ "Ixx" 4 (by simp), number_fields [_, _, _, _, _] _ "Ixy" 0 (by simp),
    number_fields [_, _, _, _, _, _] _ "Ixz" 0 (by simp), number_fields [_, _, _, _, _, _, _] _ "Iyy" 6 (by simp),
    number_fields [_, _, _, _, _, _, _, _] _ "Iyz" 0 (by simp), number_fields [_, _, _, _, _, _, _, _, _] _ "Izz" 7 (by simp)⟩

end Ex

/-! ## C43 -/

/-- C43: `save_par(file, L)` and then `load_par(file, L)` or `load_par(file, {})` on a robot with the same argument sizes restores the arguments in
`L` and changes nothing else.  Saving changes no later result. -/
theorem C43 (r r₂ : Robot) (L names : List String) (hn : names = L ∨ names = []) (hs : ∀ k ∈ L, (r₂.arg k).length = (r.arg k).length) :
    ∃ y r' r₃, savePar L r = .ok y r' ∧ (∀ cs, trace cs r' = trace cs r) ∧ loadPar (some y) names r₂ = .ok 1 r₃ ∧
      (∀ k ∈ L, r₃.arg k = r.arg k) ∧ (∀ k, k ∉ L → r₃.args.find k = r₂.args.find k) ∧ r₃ = { r₂ with args := r₃.args } := by
  obtain ⟨y, r', e, h1, h2⟩ := saveLoop_ok (f := r.arg) L [] Yaml.null r
    ⟨.inl rfl, by simp [Yaml.items], by simp⟩ rfl
  rw [List.nil_append] at h1
  obtain ⟨r₃, e3, h3⟩ := loadPar_saved h1 hs hn
  exact ⟨y, r', r₃, e, fun cs => trace_sim cs h2, e3, h3.val, h3.rest, h3.only⟩

namespace Ex
example : ∀ k ∈ ["q", "dq", "q"], ((rob.setArgs "q" [some 7]).arg k).length = (rob.arg k).length := by
  intro k hk
  rw [arg_setArgs]
  simp only [List.mem_cons, List.not_mem_nil, or_false] at hk
  rcases hk with rfl | rfl | rfl <;> rfl
end Ex

end Thunder
