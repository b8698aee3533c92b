import Verif.Lemmas.FnGood

/-!
# The `compute_*` functions register the library
-/

open scoped Classical

namespace Thunder

noncomputable section

open Spec

namespace Robot

variable [Fl] {c : Conf}

/-! ## The lists of registrations belong to the library -/

theorem reg_mem {g : Reg} (f : Fn) (hv : f.Valid c) (h : g = f.reg c) : g ∈ Fn.lib c := ⟨f, hv, h⟩

theorem reg_eq {g : Reg} (f : Fn) (hv : f.Valid c) (h1 : g.name = f.name) (h2 : g.expr = f.expr (base c) c) (h3 : g.sure = f.sure.map Key.str)
    (h4 : g.possible = (f.pos c.n).map Key.str) (h5 : g.descr = f.descr c.n) : g ∈ Fn.lib c := by
  refine ⟨f, hv, ?_⟩
  cases g
  simp only [Fn.reg] at *
  subst h1 h2 h3 h4 h5
  rfl

omit [Fl] in
/-- The name of a function without a number. -/
theorem name_plain {s : String} (f : Fn) (h : f.num = none) (hs : s = f.stem.str) : s = f.name := by
  unfold Fn.name
  rw [h, hs]
  exact String.append_empty.symm

theorem chain_lib : ∀ g ∈ chainRegs (base c), g ∈ Fn.lib c := by
  have hn : (base c).n = c.n := rfl
  intro g hg
  simp only [chainRegs, List.mem_append, List.mem_flatMap, List.mem_range, List.mem_cons, List.not_mem_nil, or_false, hn] at hg
  rcases hg with ((rfl | rfl) | ⟨i, hi, rfl | rfl⟩) | (rfl | rfl)
  · exact reg_eq (.T 0) (Nat.zero_le _) (show "T_0" = _ by decide) rfl rfl rfl rfl
  · exact reg_eq (.T0 0) (Nat.zero_le _) (show "T_0_0" = _ by decide) (by simp [Fn.expr]) rfl rfl rfl
  · exact reg_eq (.T (i + 1)) (Nat.succ_le_of_lt hi) rfl rfl rfl rfl rfl
  · have h1 : i + 1 ≠ c.n + 1 := by omega
    have e1 : (Fn.T0 (i + 1)).expr (base c) c = (base c).T0 (i + 1) := if_neg h1
    have e2 : (Fn.T0 (i + 1)).pos c.n = [.DH, .W2L] := by
      simp only [Fn.pos]
      rw [if_neg (Nat.succ_ne_zero i), if_neg h1]
    have e3 : (Fn.T0 (i + 1)).descr c.n = "absolute transformation from frame base to frame " ++ toString (i + 1) := by
      unfold Fn.descr
      dsimp only
      rewrite [if_neg (Nat.succ_ne_zero i), if_neg h1]
      exact rfl
    exact reg_eq (.T0 (i + 1)) (Nat.succ_le_succ hi.le) rfl e1.symm rfl (by rw [e2]; rfl) e3.symm
  · have e1 : (Fn.T0 (c.n + 1)).expr (base c) c = (base c).T0ee := if_pos rfl
    have e2 : (Fn.T0 (c.n + 1)).pos c.n = [.DH, .W2L, .EE] := by
      simp only [Fn.pos]
      rw [if_neg (Nat.succ_ne_zero _), if_pos trivial]
    have e3 : (Fn.T0 (c.n + 1)).descr c.n = "absolute transformation from frame base to end_effector" := by
      unfold Fn.descr
      dsimp only
      rewrite [if_neg (Nat.succ_ne_zero _), if_pos rfl]
      exact rfl
    exact reg_eq (.T0 (c.n + 1)) le_rfl rfl e1.symm rfl (by rw [e2]; rfl) e3.symm
  · exact reg_eq .T0ee trivial (name_plain _ rfl rfl) rfl rfl rfl rfl

theorem jac_lib : ∀ g ∈ jacRegs (base c), g ∈ Fn.lib c := by
  have hn : (base c).n = c.n := rfl
  intro g hg
  simp only [jacRegs, List.mem_append, List.mem_map, List.mem_range, List.mem_cons, List.not_mem_nil, or_false, hn] at hg
  rcases hg with ⟨i, hi, rfl⟩ | (rfl | rfl)
  · have h1 : i + 1 ≠ c.n + 1 := by omega
    exact reg_eq (.J (i + 1)) ⟨by omega, by omega⟩ rfl rfl rfl (by simp only [Fn.pos]; rw [if_neg h1]; rfl) rfl
  · exact reg_eq (.J (c.n + 1)) ⟨by omega, by omega⟩ rfl rfl rfl (by simp only [Fn.pos]; rw [if_pos trivial]; rfl) rfl
  · exact reg_eq .Jee trivial (name_plain _ rfl rfl) rfl rfl rfl rfl

theorem kinAdv_lib : ∀ g ∈ kinAdvRegs (base c), g ∈ Fn.lib c := by
  intro g hg
  simp only [kinAdvRegs, List.mem_cons, List.not_mem_nil, or_false] at hg
  rcases hg with rfl | rfl | rfl
  · exact reg_eq .JeeDot trivial (name_plain _ rfl rfl) rfl rfl rfl rfl
  · exact reg_eq .JeeDdot trivial (name_plain _ rfl rfl) rfl rfl rfl rfl
  · exact reg_eq .JeePinv trivial (name_plain _ rfl rfl) rfl rfl rfl rfl

theorem mcg_lib : ∀ g ∈ mcgRegs (base c), g ∈ Fn.lib c := by
  have hn : (base c).n = c.n := rfl
  intro g hg
  simp only [mcgRegs, List.mem_append, List.mem_map, List.mem_range, List.mem_cons, List.not_mem_nil, or_false, hn] at hg
  rcases hg with ⟨i, hi, rfl⟩ | (rfl | rfl | rfl | rfl)
  · exact reg_eq (.Jcm (i + 1)) ⟨by omega, by omega⟩ rfl rfl rfl rfl rfl
  · exact reg_eq .M trivial (name_plain _ rfl rfl) rfl rfl rfl rfl
  · exact reg_eq .C trivial (name_plain _ rfl rfl) rfl rfl rfl rfl
  · exact reg_eq .Cstd trivial (name_plain _ rfl rfl) rfl rfl rfl rfl
  · exact reg_eq .G trivial (name_plain _ rfl rfl) rfl rfl rfl rfl

theorem dynDer_lib : ∀ g ∈ dynDerRegs (base c), g ∈ Fn.lib c := by
  intro g hg
  simp only [dynDerRegs, List.mem_cons, List.not_mem_nil, or_false] at hg
  rcases hg with rfl | rfl | rfl | rfl | rfl | rfl
  · exact reg_eq .Mdot trivial (name_plain _ rfl rfl) rfl rfl rfl rfl
  · exact reg_eq .Mddot trivial (name_plain _ rfl rfl) rfl rfl rfl rfl
  · exact reg_eq .Cdot trivial (name_plain _ rfl rfl) rfl rfl rfl rfl
  · exact reg_eq .Cddot trivial (name_plain _ rfl rfl) rfl rfl rfl rfl
  · exact reg_eq .Gdot trivial (name_plain _ rfl rfl) rfl rfl rfl rfl
  · exact reg_eq .Gddot trivial (name_plain _ rfl rfl) rfl rfl rfl rfl

/-- The registrations of `compute_Dl`. -/
def cDl (c : Conf) : List Reg := if 0 < c.dlO then dlRegs (base c) c.dlO else []

theorem dl_lib : ∀ g ∈ cDl c, g ∈ Fn.lib c := by
  intro g hg
  unfold cDl at hg
  split_ifs at hg with h0
  · simp only [dlRegs, List.mem_cons, List.mem_map, List.mem_range] at hg
    rcases hg with rfl | ⟨o, ho, rfl⟩
    · exact reg_eq .dl h0 (name_plain _ rfl rfl) rfl rfl rfl rfl
    · exact reg_eq (.Dl (o + 1)) ⟨by omega, by omega⟩ rfl rfl rfl rfl rfl
  · cases hg

/-- The registrations of `compute_elastic`. -/
def cEla (c : Conf) : List Reg :=
  (if 0 < c.kO then
    ⟨"k", (base c).kFun c.ne c.kO, ["q", "x"], ["par_K"], "SEA manipulator elastic coupling"⟩ ::
      (List.range c.kO).map fun o => ⟨"K" ++ toString (2 * o + 1), diagPar (base c).parK c.ne c.kO o, [], ["par_K"],
        "SEA manipulator elastic coupling, order " ++ toString (2 * o + 1)⟩
    else [])
  ++ (if 0 < c.dO then
    ⟨"d", (base c).dFun c.ne c.dO, ["dq", "dx"], ["par_D"], "SEA manipulator dampind coupling"⟩ ::
      (List.range c.dO).map fun o => ⟨"D" ++ toString (o + 1), diagPar (base c).parD c.ne c.dO o, [], ["par_D"],
        "SEA manipulator damping coupling, order " ++ toString (o + 1)⟩
    else [])
  ++ (if 0 < c.dmO then
    ⟨"dm", (base c).dmFun c.ne c.dmO, ["dx"], ["par_Dm"], "SEA manipulator motor damping"⟩ ::
      (List.range c.dmO).map fun o => ⟨"Dm" ++ toString (o + 1), diagPar (base c).parDm c.ne c.dmO o, [], ["par_Dm"],
        "SEA manipulator motor damping, order " ++ toString (o + 1)⟩
    else [])
  ++ [⟨"Mm", (base c).MmFun c.ne, [], ["par_Mm"], "SEA manipulator motor inertia"⟩]

omit [Fl] in
theorem elaRegs_run {r : Robot} {L : Set Reg} (h : Run c r L) : elaRegs r = cEla c := by
  unfold elaRegs cEla
  rw [baseOf_run h, h.kOrd, h.dOrd, h.dmOrd, h.ne]

theorem ela_lib (he : c.elastic = true) : ∀ g ∈ cEla c, g ∈ Fn.lib c := by
  intro g hg
  simp only [cEla, List.mem_append, List.mem_singleton] at hg
  rcases hg with ((hg | hg) | hg) | rfl
  · split_ifs at hg with h0
    · simp only [List.mem_cons, List.mem_map, List.mem_range] at hg
      rcases hg with rfl | ⟨o, ho, rfl⟩
      · exact reg_eq .k ⟨he, h0⟩ (name_plain _ rfl rfl) rfl rfl rfl rfl
      · exact reg_eq (.K o) ⟨he, ho⟩ rfl rfl rfl rfl rfl
    · cases hg
  · split_ifs at hg with h0
    · simp only [List.mem_cons, List.mem_map, List.mem_range] at hg
      rcases hg with rfl | ⟨o, ho, rfl⟩
      · exact reg_eq .d ⟨he, h0⟩ (name_plain _ rfl rfl) rfl rfl rfl rfl
      · exact reg_eq (.D (o + 1)) ⟨he, by omega, by omega⟩ rfl rfl rfl rfl rfl
    · cases hg
  · split_ifs at hg with h0
    · simp only [List.mem_cons, List.mem_map, List.mem_range] at hg
      rcases hg with rfl | ⟨o, ho, rfl⟩
      · exact reg_eq .dm ⟨he, h0⟩ (name_plain _ rfl rfl) rfl rfl rfl rfl
      · exact reg_eq (.Dm (o + 1)) ⟨he, by omega, by omega⟩ rfl rfl rfl rfl rfl
    · cases hg
  · exact reg_eq .Mm he (name_plain _ rfl rfl) rfl rfl rfl rfl

theorem yr_lib : ∀ g ∈ yrRegs (base c), g ∈ Fn.lib c := by
  intro g hg
  simp only [yrRegs, List.mem_cons, List.not_mem_nil, or_false] at hg
  rcases hg with rfl | rfl | rfl | rfl
  · exact reg_eq .Yr trivial (name_plain _ rfl rfl) rfl rfl rfl rfl
  · exact reg_eq .regM trivial (name_plain _ rfl rfl) rfl rfl rfl rfl
  · exact reg_eq .regC trivial (name_plain _ rfl rfl) rfl rfl rfl rfl
  · exact reg_eq .regG trivial (name_plain _ rfl rfl) rfl rfl rfl rfl

/-- The registrations of a parameter regressor. -/
def cReg (c : Conf) (f : Fn) : List Reg := if f.Valid c then [f.reg c] else []

theorem reg_lib (f : Fn) : ∀ g ∈ cReg c f, g ∈ Fn.lib c := by
  intro g hg
  unfold cReg at hg
  split_ifs at hg with h
  · exact reg_mem f h (List.mem_singleton.1 hg)
  · cases hg

/-! ## Composition -/

variable {L : Set Reg}

/-- Registering a list. -/
theorem Does.list (hn : 0 < c.n) (ht : Typed c) {gs : List Reg} (hL : L ⊆ Fn.lib c) (hgs : ∀ g ∈ gs, g ∈ Fn.lib c) :
    Does c (Robot.registerAll gs) L (L ∪ {g | g ∈ gs}) := Does.registerAll (Fn.uniq_lib c) (Fn.good_lib hn ht) (fun _ h => hL h) hgs

theorem sub_union {gs : List Reg} (hL : L ⊆ Fn.lib c) (hgs : ∀ g ∈ gs, g ∈ Fn.lib c) : L ∪ {g | g ∈ gs} ⊆ Fn.lib c := by
  rintro g (hg | hg)
  · exact hL hg
  · exact hgs g hg

omit [Fl] in
theorem union_same {gs : List Reg} (h : {g | g ∈ gs} ⊆ L) : L ∪ {g | g ∈ gs} = L := Set.union_eq_self_of_subset_right h

section

variable (hn : 0 < c.n) (ht : Typed c) (hL : L ⊆ Fn.lib c)
include hn ht hL

theorem does_chain : Does c computeChain L (L ∪ {g | g ∈ chainRegs (base c)}) :=
  Does.read fun r hr => by rw [baseOf_run hr]; exact Does.list hn ht hL chain_lib

theorem does_jac (h : {g | g ∈ chainRegs (base c)} ⊆ L) : Does c computeJacobians L (L ∪ {g | g ∈ jacRegs (base c)}) := by
  refine Does.bind (L' := L) (Does.unlessHas _ ?_) (Does.read fun r hr => by rw [baseOf_run hr]; exact Does.list hn ht hL jac_lib)
  have := does_chain hn ht hL
  rwa [union_same h] at this

theorem again_chain (s : String) (h : {g | g ∈ chainRegs (base c)} ⊆ L) : Does c (unlessHas s computeChain) L L := by
  refine Does.unlessHas _ ?_
  have := does_chain hn ht hL
  rwa [union_same h] at this

theorem again_jac (s : String) (h : {g | g ∈ chainRegs (base c)} ⊆ L) (h' : {g | g ∈ jacRegs (base c)} ⊆ L) : Does c (unlessHas s computeJacobians) L L := by
  refine Does.unlessHas _ ?_
  have := does_jac hn ht hL h
  rwa [union_same h'] at this

theorem does_kinAdv (h : {g | g ∈ chainRegs (base c)} ⊆ L) (h' : {g | g ∈ jacRegs (base c)} ⊆ L) :
    Does c computeKinAdv L (L ∪ {g | g ∈ kinAdvRegs (base c)}) :=
  (again_chain hn ht hL _ h).bind ((again_jac hn ht hL _ h h').bind (Does.read fun r hr => by rw [baseOf_run hr]; exact Does.list hn ht hL kinAdv_lib))

theorem does_mcg (h : {g | g ∈ chainRegs (base c)} ⊆ L) : Does c computeMCG L (L ∪ {g | g ∈ mcgRegs (base c)}) :=
  (again_chain hn ht hL _ h).bind (Does.read fun r hr => by rw [baseOf_run hr]; exact Does.list hn ht hL mcg_lib)

theorem does_dl : Does c computeDl L (L ∪ {g | g ∈ cDl c}) := by
  refine Does.read fun r hr => ?_
  rw [baseOf_run hr, hr.dlOrd]
  unfold cDl
  split_ifs with h0
  · refine Does.list hn ht hL fun g hg => dl_lib g ?_
    rw [cDl, if_pos h0]; exact hg
  · simp only [List.not_mem_nil, Set.ofPred_false, Set.union_empty]
    exact Does.pure

theorem does_ela : Does c computeElastic L (L ∪ {g | g ∈ if c.elastic = true then cEla c else []}) := by
  refine Does.read fun r hr => ?_
  rw [hr.elastic]
  by_cases he : c.elastic = true
  · simp only [he, if_true]
    have h0 : 0 ≤ r.kI ∧ 0 ≤ r.dI ∧ 0 ≤ r.dmI := by
      rw [hr.kI, hr.dI, hr.dmI]
      refine ⟨by positivity, by positivity, by positivity⟩
    rw [if_pos h0, elaRegs_run hr]
    intro r' hr'
    obtain ⟨r'', e, h''⟩ := Does.list hn ht hL (ela_lib he) r' hr'
    exact ⟨r'', (Act.bind_ok (Act.ofExc_some _ _)).trans e, h''⟩
  · simp only [Bool.not_eq_true] at he
    simp only [he, Bool.false_eq_true, if_false, List.not_mem_nil, Set.ofPred_false, Set.union_empty]
    exact Does.pure

theorem does_dynDer (h : {g | g ∈ chainRegs (base c)} ⊆ L) (h' : {g | g ∈ mcgRegs (base c)} ⊆ L) :
    Does c computeDynDer L (L ∪ {g | g ∈ dynDerRegs (base c)}) := by
  refine Does.bind (L' := L) (Does.unlessHas _ ?_) (Does.read fun r hr => by rw [baseOf_run hr]; exact Does.list hn ht hL dynDer_lib)
  have := does_mcg hn ht hL h
  rwa [union_same h'] at this

theorem does_yr (h : {g | g ∈ chainRegs (base c)} ⊆ L) (h' : {g | g ∈ jacRegs (base c)} ⊆ L) :
    Does c computeYr L (L ∪ {g | g ∈ yrRegs (base c)}) :=
  (again_chain hn ht hL _ h).bind ((again_jac hn ht hL _ h h').bind (Does.read fun r hr => by rw [baseOf_run hr]; exact Does.list hn ht hL yr_lib))

/-- Registering a regressor when there is a symbolic parameter. -/
theorem does_when (f : Fn) {l : List Expr} (hf : f.Valid c ↔ l ≠ []) {g : Reg} (hg : g = f.reg c) : Does c (registerWhen l [g]) L (L ∪ {g | g ∈ cReg c f}) := by
  unfold registerWhen cReg
  by_cases h : l = []
  · have hv : ¬ f.Valid c := fun h' => hf.1 h' h
    rw [if_neg (by simp [h]), if_neg hv]
    simp only [List.not_mem_nil, Set.ofPred_false, Set.union_empty]
    exact Does.pure
  · have hv : f.Valid c := hf.2 h
    rw [if_pos (by simpa using h), if_pos hv, hg]
    refine Does.list hn ht hL fun g hg => reg_lib f g ?_
    rw [cReg, if_pos hv]; exact hg

theorem does_regJ (h : {g | g ∈ chainRegs (base c)} ⊆ L) (h' : {g | g ∈ jacRegs (base c)} ⊆ L) :
    Does c computeRegJ L (L ∪ {g | g ∈ cReg c .regJdq ++ cReg c .regJTw}) := by
  refine (again_chain hn ht hL _ h).bind ((again_jac hn ht hL _ h h').bind (Does.symbolic (k := .DH) trivial (Does.symbolic (k := .W2L) trivial
    (Does.symbolic (k := .EE) trivial (Does.read fun r hr => ?_)))))
  have e : regJRegs r = [Fn.regJdq.reg c, Fn.regJTw.reg c] := by
    have f1 : r.flags "par_DHtable" = Key.DH.flags c := hr.flags .DH
    have f2 : r.flags "par_world2L0" = Key.W2L.flags c := hr.flags .W2L
    have f3 : r.flags "par_Ln2EE" = Key.EE.flags c := hr.flags .EE
    unfold regJRegs
    rw [baseOf_run hr, f1, f2, f3]
    have n1 : "reg_Jdq" = Fn.regJdq.name := name_plain _ rfl rfl
    have n2 : "reg_JTw" = Fn.regJTw.name := name_plain _ rfl rfl
    rw [n1, n2]
    rfl
  rw [e]
  unfold registerWhen cReg
  have hv : Fn.regJdq.Valid c ↔ Key.DH.vars c ++ Key.W2L.vars c ++ Key.EE.vars c ≠ [] := Iff.rfl
  have hv' : Fn.regJTw.Valid c ↔ Key.DH.vars c ++ Key.W2L.vars c ++ Key.EE.vars c ≠ [] := Iff.rfl
  by_cases h0 : Key.DH.vars c ++ Key.W2L.vars c ++ Key.EE.vars c = []
  · rw [if_neg (by simpa using h0), if_neg (by rw [hv]; simpa using h0), if_neg (by rw [hv']; simpa using h0)]
    simp only [List.append_nil, List.not_mem_nil, Set.ofPred_false, Set.union_empty]
    exact Does.pure
  · rw [if_pos (by simpa using h0), if_pos (hv.2 h0), if_pos (hv'.2 h0)]
    refine Does.list hn ht hL fun g hg => ?_
    simp only [List.mem_cons, List.not_mem_nil, or_false] at hg
    rcases hg with rfl | rfl
    · exact reg_mem .regJdq (hv.2 h0) rfl
    · exact reg_mem .regJTw (hv'.2 h0) rfl

theorem does_regDl (h0 : 0 < c.dlO) (h : {g | g ∈ cDl c} ⊆ L) : Does c computeRegDl L (L ∪ {g | g ∈ cReg c .regDl}) := by
  refine Does.bind (L' := L) (Does.unlessHas _ ?_) (Does.symbolic (k := .Dl) h0 (Does.read fun r hr => ?_))
  · have := does_dl hn ht hL
    rwa [union_same h] at this
  · refine does_when hn ht hL .regDl (by simp [Fn.Valid]) ?_
    have f1 : r.flags "par_Dl" = Key.Dl.flags c := hr.flags .Dl
    have n1 : "reg_dl" = Fn.regDl.name := name_plain _ rfl rfl
    rw [baseOf_run hr, f1, n1, hr.dlOrd]
    rfl

theorem does_regEla (he : c.elastic = true) (h : {g | g ∈ cEla c} ⊆ L) :
    Does c computeRegElastic L (L ∪ {g | g ∈ cReg c .regK} ∪ {g | g ∈ cReg c .regD} ∪ {g | g ∈ cReg c .regDm} ∪ {g | g ∈ cReg c .regMm}) := by
  have h1 := sub_union hL (reg_lib (c := c) .regK)
  have h2 := sub_union h1 (reg_lib (c := c) .regD)
  have h3 := sub_union h2 (reg_lib (c := c) .regDm)
  refine Does.bind (L' := L) (Does.unlessHas _ ?_) ?_
  · have := does_ela hn ht hL
    simp only [he, if_true] at this
    rwa [union_same h] at this
  refine Does.bind (Does.touchModel (by intro k; cases k <;> decide) (by decide)) ?_
  refine Does.bind (Does.touchModel (by intro k; cases k <;> decide) (by decide)) ?_
  refine Does.bind (Does.touchModel (by intro k; cases k <;> decide) (by decide)) ?_
  refine Does.bind (Does.touchModel (by intro k; cases k <;> decide) (by decide)) ?_
  refine Does.symbolic (k := .K) he (Does.symbolic (k := .D) he (Does.symbolic (k := .Dm) he (Does.symbolic (k := .Mm) he (Does.read fun r hr => ?_))))
  rw [baseOf_run hr, hr.ne, hr.kOrd, hr.dOrd, hr.dmOrd]
  have f1 : r.flags "par_K" = Key.K.flags c := hr.flags .K
  have f2 : r.flags "par_D" = Key.D.flags c := hr.flags .D
  have f3 : r.flags "par_Dm" = Key.Dm.flags c := hr.flags .Dm
  have f4 : r.flags "par_Mm" = Key.Mm.flags c := hr.flags .Mm
  have n1 : "reg_k" = Fn.regK.name := name_plain _ rfl rfl
  have n2 : "reg_d" = Fn.regD.name := name_plain _ rfl rfl
  have n3 : "reg_dm" = Fn.regDm.name := name_plain _ rfl rfl
  have n4 : "reg_Mm" = Fn.regMm.name := name_plain _ rfl rfl
  rw [f1, f2, f3, f4, n1, n2, n3, n4]
  refine Does.bind (does_when hn ht hL .regK (by simp [Fn.Valid]) rfl) ?_
  refine Does.bind (does_when hn ht h1 .regD (by simp [Fn.Valid]) rfl) ?_
  refine Does.bind (does_when hn ht h2 .regDm (by simp [Fn.Valid]) rfl) ?_
  exact does_when hn ht h3 .regMm (by simp [Fn.Valid]) rfl

end

end Robot

end

end Thunder
