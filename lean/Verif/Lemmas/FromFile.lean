import Verif.Lemmas.Compute

/-!
# `robot_from_file`
-/

open scoped Classical

namespace Thunder

noncomputable section

open Spec Act

namespace Robot

variable [Fl] {c : Conf}

/-- All registrations, in order. -/
def allRegs (c : Conf) : List Reg :=
  chainRegs (base c) ++ jacRegs (base c) ++ kinAdvRegs (base c) ++ mcgRegs (base c) ++ cDl c ++ (if c.elastic = true then cEla c else [])
  ++ dynDerRegs (base c) ++ yrRegs (base c) ++ cReg c .regJdq ++ cReg c .regJTw ++ cReg c .regDl ++ cReg c .regK ++ cReg c .regD ++ cReg c .regDm
  ++ cReg c .regMm

theorem all_lib : ∀ g ∈ allRegs c, g ∈ Fn.lib c := by
  intro g hg
  simp only [allRegs, List.mem_append, or_assoc] at hg
  rcases hg with h | h | h | h | h | h | h | h | h | h | h | h | h | h | h
  · exact chain_lib g h
  · exact jac_lib g h
  · exact kinAdv_lib g h
  · exact mcg_lib g h
  · exact dl_lib g h
  · split_ifs at h with he
    · exact ela_lib he g h
    · cases h
  · exact dynDer_lib g h
  · exact yr_lib g h
  all_goals exact reg_lib _ g h

theorem mem_of_name {f : Fn} (hv : f.Valid c) {g : Reg} (hg : g ∈ allRegs c) (h : g.name = f.name) : f.reg c ∈ allRegs c := by
  rw [← Fn.uniq_lib c g (all_lib g hg) (f.reg c) ⟨f, hv, rfl⟩ h]
  exact hg

theorem covered {f : Fn} (hv : f.Valid c) : ∃ g ∈ allRegs c, g.name = f.name := by
  have hn : (base c).n = c.n := rfl
  have key : ∀ (l : List Reg), (∀ g ∈ l, g ∈ allRegs c) → (∃ g ∈ l, g.name = f.name) → ∃ g ∈ allRegs c, g.name = f.name :=
    fun l hl ⟨g, h1, h2⟩ => ⟨g, hl g h1, h2⟩
  have k1 : ∀ g ∈ chainRegs (base c), g ∈ allRegs c := by intro g h; simp only [allRegs, List.mem_append, h, true_or]
  have k2 : ∀ g ∈ jacRegs (base c), g ∈ allRegs c := by intro g h; simp only [allRegs, List.mem_append, h, true_or, or_true]
  have k3 : ∀ g ∈ kinAdvRegs (base c), g ∈ allRegs c := by intro g h; simp only [allRegs, List.mem_append, h, true_or, or_true]
  have k4 : ∀ g ∈ mcgRegs (base c), g ∈ allRegs c := by intro g h; simp only [allRegs, List.mem_append, h, true_or, or_true]
  have k5 : ∀ g ∈ cDl c, g ∈ allRegs c := by intro g h; simp only [allRegs, List.mem_append, h, true_or, or_true]
  have k6 : c.elastic = true → ∀ g ∈ cEla c, g ∈ allRegs c := by intro he g h; simp only [allRegs, List.mem_append, he, if_true, h, true_or, or_true]
  have k7 : ∀ g ∈ dynDerRegs (base c), g ∈ allRegs c := by intro g h; simp only [allRegs, List.mem_append, h, true_or, or_true]
  have k8 : ∀ g ∈ yrRegs (base c), g ∈ allRegs c := by intro g h; simp only [allRegs, List.mem_append, h, true_or, or_true]
  have kr : ∀ f' : Fn, f'.Valid c → f' ∈ [Fn.regJdq, .regJTw, .regDl, .regK, .regD, .regDm, .regMm] → ∃ g ∈ allRegs c, g.name = f'.name := by
    intro f' hf' hm
    have : f'.reg c ∈ cReg c f' := by rw [cReg, if_pos hf']; exact List.mem_singleton_self _
    refine ⟨f'.reg c, ?_, rfl⟩
    simp only [List.mem_cons, List.not_mem_nil, or_false] at hm
    rcases hm with rfl | rfl | rfl | rfl | rfl | rfl | rfl <;> simp only [allRegs, List.mem_append, this, true_or, or_true]
  cases f with
  | T i =>
    rcases i with _ | i
    · refine key _ k1 ⟨⟨"T_0", (base c).Ti 0, [], ["par_world2L0"], "relative transformation from frame base to frame 1"⟩, ?_, ?_⟩
      · simp only [chainRegs]
        exact List.mem_append_left _ (List.mem_append_left _ List.mem_cons_self)
      · show "T_0" = (Fn.T 0).name
        decide
    · refine key _ k1 ⟨⟨"T_" ++ toString (i + 1), (base c).Ti (i + 1), ["q"], ["par_DHtable"],
        "relative transformation from frame" ++ toString i ++ "to frame " ++ toString (i + 1)⟩, ?_, rfl⟩
      simp only [chainRegs]
      exact List.mem_append_left _ (List.mem_append_right _ (List.mem_flatMap.2 ⟨i, List.mem_range.2 hv, List.mem_cons_self⟩))
  | T0 i =>
    rcases i with _ | i
    · refine key _ k1 ⟨_, (by simp only [chainRegs]; exact List.mem_append_left _ (List.mem_append_left _ (.tail _ (.head _)))), ?_⟩
      show "T_0_0" = (Fn.T0 0).name
      decide
    · by_cases h : i = c.n
      · subst h
        refine key _ k1 ⟨_, (by simp only [chainRegs]; exact List.mem_append_right _ (.head _)), ?_⟩
        rfl
      · have : i + 1 ≤ c.n + 1 := hv
        refine key _ k1 ⟨_, (by simp only [chainRegs]; exact List.mem_append_left _ (List.mem_append_right _ (List.mem_flatMap.2 ⟨i, List.mem_range.2 (by rw [hn]; omega), .tail _ (.head _)⟩))), ?_⟩
        rfl
  | T0ee =>
    refine key _ k1 ⟨_, (by simp only [chainRegs]; exact List.mem_append_right _ (.tail _ (.head _))), ?_⟩
    exact name_plain _ rfl rfl
  | J i =>
    have hv : 1 ≤ i ∧ i ≤ c.n + 1 := hv
    obtain ⟨i, rfl⟩ : ∃ j, i = j + 1 := ⟨i - 1, by omega⟩
    by_cases h : i = c.n
    · subst h
      refine key _ k2 ⟨_, (by simp only [jacRegs]; exact List.mem_append_right _ (.head _)), ?_⟩
      rfl
    · refine key _ k2 ⟨_, (by simp only [jacRegs]; exact List.mem_append_left _ (List.mem_map.2 ⟨i, List.mem_range.2 (by rw [hn]; omega), rfl⟩)), ?_⟩
      rfl
  | Jee =>
    refine key _ k2 ⟨_, (by simp only [jacRegs]; exact List.mem_append_right _ (.tail _ (.head _))), ?_⟩
    exact name_plain _ rfl rfl
  | JeeDot =>
    refine key _ k3 ⟨_, (by simp only [kinAdvRegs]; exact .head _), ?_⟩
    exact name_plain _ rfl rfl
  | JeeDdot =>
    refine key _ k3 ⟨_, (by simp only [kinAdvRegs]; exact .tail _ (.head _)), ?_⟩
    exact name_plain _ rfl rfl
  | JeePinv =>
    refine key _ k3 ⟨_, (by simp only [kinAdvRegs]; exact .tail _ (.tail _ (.head _))), ?_⟩
    exact name_plain _ rfl rfl
  | Jcm i =>
    have hv : 1 ≤ i ∧ i ≤ c.n := hv
    obtain ⟨i, rfl⟩ : ∃ j, i = j + 1 := ⟨i - 1, by omega⟩
    refine key _ k4 ⟨_, (by simp only [mcgRegs]; exact List.mem_append_left _ (List.mem_map.2 ⟨i, List.mem_range.2 (by rw [hn]; omega), rfl⟩)), ?_⟩
    exact rfl
  | M =>
    refine key _ k4 ⟨_, (by simp only [mcgRegs]; exact List.mem_append_right _ (.head _)), ?_⟩
    exact name_plain _ rfl rfl
  | C =>
    refine key _ k4 ⟨_, (by simp only [mcgRegs]; exact List.mem_append_right _ (.tail _ (.head _))), ?_⟩
    exact name_plain _ rfl rfl
  | Cstd =>
    refine key _ k4 ⟨_, (by simp only [mcgRegs]; exact List.mem_append_right _ (.tail _ (.tail _ (.head _)))), ?_⟩
    exact name_plain _ rfl rfl
  | G =>
    refine key _ k4 ⟨_, (by simp only [mcgRegs]; exact List.mem_append_right _ (.tail _ (.tail _ (.tail _ (.head _))))), ?_⟩
    exact name_plain _ rfl rfl
  | Mdot =>
    refine key _ k7 ⟨_, (by simp only [dynDerRegs]; exact .head _), ?_⟩
    exact name_plain _ rfl rfl
  | Mddot =>
    refine key _ k7 ⟨_, (by simp only [dynDerRegs]; exact .tail _ (.head _)), ?_⟩
    exact name_plain _ rfl rfl
  | Cdot =>
    refine key _ k7 ⟨_, (by simp only [dynDerRegs]; exact .tail _ (.tail _ (.head _))), ?_⟩
    exact name_plain _ rfl rfl
  | Cddot =>
    refine key _ k7 ⟨_, (by simp only [dynDerRegs]; exact .tail _ (.tail _ (.tail _ (.head _)))), ?_⟩
    exact name_plain _ rfl rfl
  | Gdot =>
    refine key _ k7 ⟨_, (by simp only [dynDerRegs]; exact .tail _ (.tail _ (.tail _ (.tail _ (.head _))))), ?_⟩
    exact name_plain _ rfl rfl
  | Gddot =>
    refine key _ k7 ⟨_, (by simp only [dynDerRegs]; exact .tail _ (.tail _ (.tail _ (.tail _ (.tail _ (.head _)))))), ?_⟩
    exact name_plain _ rfl rfl
  | dl =>
    have hv : 0 < c.dlO := hv
    refine key _ k5 ⟨_, (by rw [cDl, if_pos hv]; exact .head _), ?_⟩
    exact name_plain _ rfl rfl
  | Dl i =>
    have hv : 1 ≤ i ∧ i ≤ c.dlO := hv
    obtain ⟨i, rfl⟩ : ∃ j, i = j + 1 := ⟨i - 1, by omega⟩
    refine key _ k5 ⟨_, (by rw [cDl, if_pos (by omega)]; exact .tail _ (List.mem_map.2 ⟨i, List.mem_range.2 (by omega), rfl⟩)), ?_⟩
    exact rfl
  | k =>
    refine key _ (k6 hv.1) ⟨_, (by
      simp only [cEla, List.append_assoc]
      rw [if_pos (show 0 < c.kO from hv.2)]
      exact List.mem_append_left _ (.head _)), ?_⟩
    exact name_plain _ rfl rfl
  | K i =>
    have h := hv.2
    refine key _ (k6 hv.1) ⟨_, (by
      simp only [cEla, List.append_assoc]
      rw [if_pos (show 0 < c.kO by simp only [Fn.Valid] at hv; omega)]
      exact List.mem_append_left _ (.tail _ (List.mem_map.2 ⟨i, List.mem_range.2 (h), rfl⟩))), ?_⟩
    exact rfl
  | d =>
    refine key _ (k6 hv.1) ⟨_, (by
      simp only [cEla, List.append_assoc]
      rw [if_pos (show 0 < c.dO from hv.2)]
      exact List.mem_append_right _ (List.mem_append_left _ (.head _))), ?_⟩
    exact name_plain _ rfl rfl
  | D i =>
    obtain ⟨he, h1, h2⟩ : c.elastic = true ∧ 1 ≤ i ∧ i ≤ c.dO := hv
    obtain ⟨i, rfl⟩ : ∃ j, i = j + 1 := ⟨i - 1, by omega⟩
    refine key _ (k6 he) ⟨_, (by
      simp only [cEla, List.append_assoc]
      rw [if_pos (show 0 < c.dO by omega)]
      exact List.mem_append_right _ (List.mem_append_left _ (.tail _ (List.mem_map.2 ⟨i, List.mem_range.2 (by omega), rfl⟩)))), ?_⟩
    exact rfl
  | dm =>
    refine key _ (k6 hv.1) ⟨_, (by
      simp only [cEla, List.append_assoc]
      rw [if_pos (show 0 < c.dmO from hv.2)]
      exact List.mem_append_right _ (List.mem_append_right _ (List.mem_append_left _ (.head _)))), ?_⟩
    exact name_plain _ rfl rfl
  | Dm i =>
    obtain ⟨he, h1, h2⟩ : c.elastic = true ∧ 1 ≤ i ∧ i ≤ c.dmO := hv
    obtain ⟨i, rfl⟩ : ∃ j, i = j + 1 := ⟨i - 1, by omega⟩
    refine key _ (k6 he) ⟨_, (by
      simp only [cEla, List.append_assoc]
      rw [if_pos (show 0 < c.dmO by omega)]
      exact List.mem_append_right _ (List.mem_append_right _ (List.mem_append_left _ (.tail _ (List.mem_map.2 ⟨i, List.mem_range.2 (by omega), rfl⟩))))), ?_⟩
    exact rfl
  | Mm =>
    refine key _ (k6 hv) ⟨_, (by
      simp only [cEla]
      exact List.mem_append_right _ (.head _)), ?_⟩
    exact name_plain _ rfl rfl
  | Yr =>
    refine key _ k8 ⟨_, (by simp only [yrRegs]; exact .head _), ?_⟩
    exact name_plain _ rfl rfl
  | regM =>
    refine key _ k8 ⟨_, (by simp only [yrRegs]; exact .tail _ (.head _)), ?_⟩
    exact name_plain _ rfl rfl
  | regC =>
    refine key _ k8 ⟨_, (by simp only [yrRegs]; exact .tail _ (.tail _ (.head _))), ?_⟩
    exact name_plain _ rfl rfl
  | regG =>
    refine key _ k8 ⟨_, (by simp only [yrRegs]; exact .tail _ (.tail _ (.tail _ (.head _)))), ?_⟩
    exact name_plain _ rfl rfl
  | regJdq => exact kr _ hv (by simp)
  | regJTw => exact kr _ hv (by simp)
  | regDl => exact kr _ hv (by simp)
  | regK => exact kr _ hv (by simp)
  | regD => exact kr _ hv (by simp)
  | regDm => exact kr _ hv (by simp)
  | regMm => exact kr _ hv (by simp)

theorem lib_eq : Fn.lib c = {g | g ∈ allRegs c} := by
  ext g
  constructor
  · rintro ⟨f, hv, rfl⟩
    obtain ⟨g, h1, h2⟩ := covered hv
    exact mem_of_name hv h1 h2
  · exact all_lib g

/-- The `compute_*` functions. -/
def computeAll : Act Robot Unit := do
  computeKinematics
  computeDynamics
  computeRegressors
  computeUserDefined

theorem does_all (hn : 0 < c.n) (ht : Typed c) : Does c computeAll ∅ (Fn.lib c) := by
  have s0 : (∅ : Set Reg) ⊆ Fn.lib c := Set.empty_subset _
  have s1 := sub_union s0 (chain_lib (c := c))
  have s2 := sub_union s1 (jac_lib (c := c))
  have s3 := sub_union s2 (kinAdv_lib (c := c))
  have s4 := sub_union s3 (mcg_lib (c := c))
  have s5 := sub_union s4 (dl_lib (c := c))
  have s6 := sub_union s5 (gs := if c.elastic = true then cEla c else []) (fun g hg => by
    split_ifs at hg with he
    · exact ela_lib he g hg
    · cases hg)
  have s7 := sub_union s6 (dynDer_lib (c := c))
  have s8 := sub_union s7 (yr_lib (c := c))
  have s9 := sub_union s8 (gs := cReg c .regJdq ++ cReg c .regJTw) (fun g hg => by
    rcases List.mem_append.1 hg with h | h
    · exact reg_lib _ g h
    · exact reg_lib _ g h)
  have s10 := sub_union s9 (reg_lib (c := c) .regDl)
  have hkin : Does c computeKinematics ∅ _ := (does_chain hn ht s0).bind ((does_jac hn ht s1 (fun g hg => by simp only [Set.mem_union]; tauto)).bind
    (does_kinAdv hn ht s2 (fun g hg => by simp only [Set.mem_union]; tauto) (fun g hg => by simp only [Set.mem_union]; tauto)))
  have hdyn : Does c computeDynamics _ _ := (does_mcg hn ht s3 (fun g hg => by simp only [Set.mem_union]; tauto)).bind ((does_dl hn ht s4).bind
    ((does_ela hn ht s5).bind (does_dynDer hn ht s6 (fun g hg => by simp only [Set.mem_union]; tauto) (fun g hg => by simp only [Set.mem_union]; tauto))))
  refine hkin.bind (hdyn.bind (Does.bind (L' := Fn.lib c) ?_ Does.pure))
  refine Does.read fun r hr => (does_yr hn ht s7 (fun g hg => by simp only [Set.mem_union]; tauto) (fun g hg => by simp only [Set.mem_union]; tauto)).bind
    ((does_regJ hn ht s8 (fun g hg => by simp only [Set.mem_union]; tauto) (fun g hg => by simp only [Set.mem_union]; tauto)).bind ?_)
  have tl : Does c (if r.elastic = true then computeRegElastic else pure ()) (∅ ∪ {g | g ∈ chainRegs (base c)} ∪ {g | g ∈ jacRegs (base c)} ∪
      {g | g ∈ kinAdvRegs (base c)} ∪ {g | g ∈ mcgRegs (base c)} ∪ {g | g ∈ cDl c} ∪ {g | g ∈ if c.elastic = true then cEla c else []} ∪
      {g | g ∈ dynDerRegs (base c)} ∪ {g | g ∈ yrRegs (base c)} ∪ {g | g ∈ cReg c .regJdq ++ cReg c .regJTw} ∪ {g | g ∈ cReg c .regDl}) (Fn.lib c) := by
    rw [hr.elastic]
    by_cases he : c.elastic = true
    · rw [if_pos he]
      have := does_regEla hn ht s10 he (fun g hg => by simp only [Set.mem_union, he, if_true]; tauto)
      refine Eq.mp (congrArg (Does c computeRegElastic _) ?_) this
      rw [lib_eq]
      ext g
      simp only [allRegs, he, if_true, List.mem_append, Set.mem_union, Set.mem_ofPred_eq, Set.mem_empty_iff_false, false_or, or_assoc]
    · have e1 : cReg c .regK = [] := if_neg fun h => he (Fn.valid_K h)
      have e2 : cReg c .regD = [] := if_neg fun h => he (Fn.valid_D h)
      have e3 : cReg c .regDm = [] := if_neg fun h => he (Fn.valid_Dm h)
      have e4 : cReg c .regMm = [] := if_neg fun h => he (Fn.valid_Mm h)
      rw [if_neg he]
      have : Does c (pure ()) (Fn.lib c) (Fn.lib c) := Does.pure
      refine Eq.mp (congrArg (fun L => Does c (pure ()) L (Fn.lib c)) ?_) this
      rw [lib_eq]
      ext g
      simp only [allRegs, he, e1, e2, e3, e4, List.mem_append, Set.mem_union, Set.mem_ofPred_eq, Set.mem_empty_iff_false, false_or, or_assoc,
        List.not_mem_nil, or_false]
  by_cases h0 : 0 < c.dlO
  · simp only [hr.dlOrd, h0, if_true]
    exact (does_regDl hn ht s9 h0 (fun g hg => by simp only [Set.mem_union]; tauto)).bind tl
  · have : cReg c .regDl = [] := if_neg fun h => h0 (Fn.valid_Dl h)
    rw [this] at tl
    simp only [List.not_mem_nil, Set.ofPred_false, Set.union_empty] at tl
    simp only [hr.dlOrd, h0, if_false]
    exact tl

omit [Fl] in
theorem act_assoc {σ α β γ : Type} (a : Act σ α) (f : α → Act σ β) (g : β → Act σ γ) : (a >>= f) >>= g = a >>= fun x => f x >>= g := by
  funext s
  rw [bind_def, bind_def, bind_def]
  cases a s <;> rfl

/-- The state after the `compute_*` functions of the library. -/
theorem before_user {y : Yaml} (h : Describes y c) (hn : 0 < c.n) (ht : Typed c) {name : String} (hnm : RobotName name) : ∃ r₁ r₂ r₃,
    loadConfPar (some y) true { robotOf c with name := name } = .ok 1 r₁ ∧ initSymb r₁ = .ok () r₂ ∧ computeAll r₂ = .ok () r₃ ∧ Run c r₃ (Fn.lib c) := by
  obtain ⟨r₁, e₁, s₁, n₁, f₁, -, m₁⟩ := start_ok h name
  obtain ⟨r₂, e₂, s₂, x₂, y₂⟩ := initSymb_ok s₁
  have hr₂ : Run c r₂ ∅ := by
    refine ⟨s₂, by rw [x₂]; exact n₁ ▸ hnm, fun g hg => absurd hg (Set.notMem_empty g), fun f hf => ?_, fun s hs => ?_⟩
    · rw [x₂] at hf
      have : r₁.funArgs.has f = true := hf
      rw [f₁] at this
      cases this
    · by_cases hk : ∃ k : Key, s = k.str
      · exact .inl hk
      · have hk : ∀ k : Key, s ≠ k.str := fun k e => hk ⟨k, e⟩
        unfold SMap.has at hs
        rw [y₂ s hk, m₁] at hs
        rcases key_of_model hs with h | rfl
        · exact .inl h
        · exact .inr (.inr (by decide))
  obtain ⟨r₃, e₃, s₃⟩ := does_all hn ht r₂ hr₂
  exact ⟨r₁, r₂, r₃, e₁, e₂, e₃, s₃⟩

/-- What `robot_from_file` leaves behind. -/
theorem fromFile_ok {y : Yaml} (h : Describes y c) (hn : 0 < c.n) (ht : Typed c) {name : String} (hnm : RobotName name) :
    ∃ r, robotFromFile name (some y) true = .ok r ∧ Done c r (Fn.lib c) := by
  obtain ⟨r₁, r₂, r₃, e₁, e₂, e₃, s₃⟩ := before_user h hn ht hnm
  obtain ⟨r₄, e₄, s₄, -, -⟩ := updateSymb_ok s₃ (Fn.good_lib hn ht)
  refine ⟨r₄, ?_, s₄⟩
  have hall : (computeAll >>= fun _ => updateSymb) r₂ = .ok () r₄ := (bind_ok e₃).trans e₄
  have hfill : fillRobot name (some y) true (robotOf c) = .ok () r₄ := by
    unfold fillRobot
    rw [bind_ok (modify_run _ _), bind_ok e₁]
    simp only [if_true]
    rw [bind_ok e₂, ← hall]
    unfold computeAll
    simp only [act_assoc]
  have hcon : constructFile (some y) = .ok (robotOf c) := construct_ok h
  unfold robotFromFile
  rw [hcon]
  dsimp only
  rw [hfill]

end Robot

end

end Thunder
