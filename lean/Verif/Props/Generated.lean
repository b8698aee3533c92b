import Verif.Lemmas.Generated
import Verif.Lemmas.Dynamics
import Verif.Props.Pipeline
import Verif.Props.Examples

/-!
# The generated class against the generating robot: C36
-/

open scoped Classical

namespace Thunder

open Spec Act Robot Wrap

noncomputable section

/-- C36 for configurations in which the symbolic parameters of links and actuators come first in their vectors: however the file is loaded into an
object of the generated class and the variables are set on both sides, each getter returns what `get` returns on the generating robot.  Missing from
the full claim: the other patterns, for which it is false (`C36_fails`, `C36_needs_aligned`), because `load_conf` stores all the parameters of links and
actuators while the generated functions expect the symbolic ones only. -/
theorem C36_partial [Fl] {y : Yaml} {c : Conf} (h : Describes y c) (hj : JointsOk c) (ha : Aligned c) {name : String} (hnm : RobotName name) :
    ∃ r, robotFromFile name (some y) true = .ok r ∧ ∀ steps : List Step, (∀ st ∈ steps, st.Fits c) → (∃ u, .load u ∈ steps) →
      ∃ r1 s1, after (steps.flatMap Step.onRobot) r = some r1 ∧ runAll (cfgOf r) (steps.map (Step.onClass y)) (init (cfgOf r)) = some s1 ∧
        ∀ f ∈ library c, ∃ m r', Robot.get f r1 = .ok m r' ∧ getter r f s1 = .value m := by
  obtain ⟨r, e, hd⟩ := fromFile_ok h hj.1 (typed_of hj) hnm
  refine ⟨r, e, fun steps hf hl => ?_⟩
  rw [cfgOf_fixed hd.toFixed]
  obtain ⟨r1, s1, e1, o1, g1, p1, l1⟩ := Pair.steps h steps (pair_init hd) hf
  have hld := l1 (.inr hl)
  refine ⟨r1, s1, e1, g1, fun f hf => ?_⟩
  obtain ⟨F, hv, rfl⟩ := Fn.mem_library.1 hf
  obtain ⟨ks, hr⟩ := p1.live.reg (F.reg c) ⟨F, hv, rfl⟩
  rw [← getter_args o1]
  exact getter_eq hr fun k hk => p1.holds hld ha (hr.here k hk)

/-- What agreement requires of friction and actuator parameters: as soon as the getters agree with `get` right after the file has been loaded, the
symbolic parameters are in front. -/
theorem C36_needs_aligned [Fl] {y : Yaml} {c : Conf} (h : Describes y c) (hj : JointsOk c) {name : String} (hnm : RobotName name) :
    ∃ r s1, robotFromFile name (some y) true = .ok r ∧ Wrap.loadConf (cfgOf r) (some y) true (init (cfgOf r)) = some s1 ∧
      ((∀ f ∈ library c, ∃ m r', Robot.get f r = .ok m r' ∧ getter r f s1 = .value m) →
        InFront (c.dlO * c.n) c.fdl c.dl ∧ (c.elastic = true → InFront (c.kO * c.ne) c.fK c.K ∧ InFront (c.dO * c.ne) c.fD c.D ∧
          InFront (c.dmO * c.ne) c.fDm c.Dm ∧ InFront c.ne c.fMm c.Mm)) := by
  obtain ⟨r, e, hd⟩ := fromFile_ok h hj.1 (typed_of hj) hnm
  obtain ⟨r1, s1, e1, o1, g1, p1, l1⟩ := Pair.steps h [.load true] (pair_init hd) (by simp [Step.Fits])
  have hl := l1 (.inr ⟨true, List.mem_singleton.2 rfl⟩)
  obtain rfl : r = r1 := Option.some.inj e1
  refine ⟨r, s1, e, ?_, fun hag => ?_⟩
  · rw [cfgOf_fixed hd.toFixed]
    simp only [List.map_cons, List.map_nil, runAll, Step.onClass, Call.run] at g1
    cases hx : Wrap.loadConf (cfg c) (some y) true (init (cfg c)) <;> rw [hx] at g1
    · cases g1
    · simpa [runAll] using g1
  have split : ∀ {m i ord : ℕ}, i < m * ord → i / ord < m ∧ i % ord < ord ∧ i / ord * ord + i % ord = i := by
    intro m i ord hi
    have ho : 0 < ord := Nat.pos_of_ne_zero fun e => by simp [e] at hi
    exact ⟨Nat.div_lt_of_lt_mul (by rwa [Nat.mul_comm]), Nat.mod_lt _ ho, by rw [Nat.mul_comm]; exact Nat.div_add_mod _ _⟩
  have lt_of : ∀ {k : Key} {j i : ℕ}, (k.idx c)[j]? = some i → i < k.size c := by
    intro k j i hi
    have := List.mem_of_getElem? hi
    unfold Key.idx at this
    exact List.mem_range.1 (List.mem_filter.1 this).1
  have gen : ∀ (k : Key) (m ord : ℕ) (F : ℕ → Fn), k.isVar = false → k.size c = m * ord → k.here c →
      (∀ o < ord, (F o).Valid c ∧ (F o).sure = [] ∧ (F o).pos c.n = [k] ∧ (F o).expr (base c) c = diagPar (kmod c k) m ord o) →
      s1.vec k.field = nums (k.size c) (k.val c) → InFront (ord * m) (k.flag c) (k.val c) := by
    intro k m ord F hk hsz hh hF hv
    refine inFront_of (fun j i hi => ?_) (hsz.trans (Nat.mul_comm _ _))
    have hlt := lt_of hi
    rw [hsz] at hlt
    obtain ⟨b1, b2, b3⟩ := split hlt
    obtain ⟨f1, f2, f3, f4⟩ := hF _ b2
    rw [← b3] at hi ⊢
    exact diag_needs p1 f1 hk hh f2 f3 f4 hv (hag _ (Fn.name_mem.2 f1)) b1 hi
  refine ⟨?_, fun he => ⟨?_, ?_, ?_, ?_⟩⟩
  · rcases Nat.eq_zero_or_pos c.dlO with h0 | h0
    · rw [h0, Nat.zero_mul]
      exact ⟨[], rfl⟩
    · refine gen .Dl c.n c.dlO (fun o => .Dl (o + 1)) rfl rfl h0 (fun o ho => ⟨?_, rfl, rfl, ?_⟩) (hl.dl.trans ?_)
      · simp only [Fn.Valid]; omega
      · rfl
      · rw [Nat.mul_comm]; rfl
  · exact gen .K c.ne c.kO (fun o => .K o) rfl (if_pos he) he (fun o ho => ⟨⟨he, ho⟩, rfl, rfl, rfl⟩)
      ((hl.K he).trans (by rw [show Key.K.size c = c.ne * c.kO from if_pos he, Nat.mul_comm]; rfl))
  · exact gen .D c.ne c.dO (fun o => .D (o + 1)) rfl (if_pos he) he (fun o ho => ⟨⟨he, by omega, ho⟩, rfl, rfl, rfl⟩)
      ((hl.D he).trans (by rw [show Key.D.size c = c.ne * c.dO from if_pos he, Nat.mul_comm]; rfl))
  · exact gen .Dm c.ne c.dmO (fun o => .Dm (o + 1)) rfl (if_pos he) he (fun o ho => ⟨⟨he, by omega, ho⟩, rfl, rfl, rfl⟩)
      ((hl.Dm he).trans (by rw [show Key.Dm.size c = c.ne * c.dmO from if_pos he, Nat.mul_comm]; rfl))
  · have := gen .Mm c.ne 1 (fun _ => .Mm) rfl ((if_pos he).trans (Nat.mul_one _).symm) he
      (fun o ho => by obtain rfl : o = 0 := by omega
                      exact ⟨he, rfl, rfl, rfl⟩)
      ((hl.Mm he).trans (by rw [show Key.Mm.size c = c.ne from if_pos he]; rfl))
    rwa [Nat.one_mul] at this

namespace Ex

/-- One revolute joint with all frames at zero.  Of the inertial parameters only the first coordinate of the centre of mass is symbolic. -/
def comOnly : Conf where
  types := ["R"]
  elastic := false
  kO := 0
  dO := 0
  dmO := 0
  dlO := 0
  dh := fun _ => 0
  w2l := fun _ => 0
  ee := fun _ => 0
  g := fun i => if i = 2 then -9.81 else 0
  dyn := fun i => i + 1
  dl := fun _ => 0
  K := fun _ => 0
  D := fun _ => 0
  Dm := fun _ => 0
  Mm := fun _ => 0
  fdh := fun _ => 1
  fw2l := fun _ => 1
  fee := fun _ => 0
  fg := fun _ => 0
  fdyn := fun i => if i = 1 then 1 else 0
  fdl := fun _ => 0
  fK := fun _ => 0
  fD := fun _ => 0
  fDm := fun _ => 0
  fMm := fun _ => 0

theorem describes_comOnly : Describes (fileOf comOnly) comOnly := describes_fileOf (fun _ => ⟨rfl, rfl, rfl⟩)
theorem joints_comOnly : JointsOk comOnly := ⟨by decide, by decide⟩

/-- The lever arm of the centre of mass, when joint and frames are at zero. -/
theorem lever_comOnly [Fl] {ρ : Var → ℝ} (h : ∀ v : Var, v.name ≠ "par_DYN" → ρ v = 0) :
    (((Fn.Jcm 1).expr (base comOnly) comOnly).e 1 0).eval ρ = ρ ⟨"par_DYN", 1⟩ := by
  have hdh : ∀ i < 4, (base comOnly).dh.e i 0 = .var ⟨"DHtable", i⟩ := fun i hi => by
    show (kmod comOnly .DH).e i 0 = _
    rw [kmod_here (k := .DH) trivial, Key.mat_sym (k := .DH) hi one_ne_zero]
    rfl
  have hw : ∀ i < 6, (base comOnly).w2l.e i 0 = .var ⟨"world2L0", i⟩ := fun i hi => by
    show (kmod comOnly .W2L).e i 0 = _
    rw [kmod_here (k := .W2L) trivial, Key.mat_sym (k := .W2L) hi one_ne_zero]
    rfl
  have hq : (base comOnly).q.e 0 0 = .var ⟨"q", 0⟩ := by
    show (kmod comOnly .q).e 0 0 = _
    rw [kmod_here (k := .q) trivial, Key.mat_sym (k := .q) (by decide) (by decide)]
    rfl
  have hcom : (base comOnly).dyn.e 1 0 = .var ⟨"par_DYN", 1⟩ := by
    show (kmod comOnly .DYN).e 1 0 = _
    rw [kmod_here (k := .DYN) trivial, Key.mat_sym (k := .DYN) (by decide) (by decide)]
    rfl
  have z : ∀ n i, n ≠ "par_DYN" → ang ρ (.var ⟨n, i⟩) = (1, 0) := fun n i hn => by
    show cs (ρ _) = _
    rw [h _ hn]
    simp [cs]
  have hw2l : SX.val ρ ((base comOnly).R0 0) 3 3 = 1 := by
    rw [Base.R0_eq]
    show SX.val ρ (rotB (getTransform (base comOnly).w2l)) 3 3 = 1
    rw [Base.val_rot_getTransform, hw 3 (by decide), hw 4 (by decide), hw 5 (by decide), z _ _ (by decide), z _ _ (by decide), z _ _ (by decide)]
    ext a b
    fin_cases a <;> fin_cases b <;> simp [rX, rY, rZ, Matrix.mul_apply, Fin.sum_univ_three]
  have hR : (base comOnly).rotV ρ 1 = 1 := by
    have hl : (base comOnly).linkRot ρ 0 = 1 := by
      have ha : ang ρ ((base comOnly).thetaE 0) = (1, 0) := by
        have : (base comOnly).thetaE 0 = .add (.var ⟨"DHtable", 3⟩) (.var ⟨"q", 0⟩) := by
          unfold Base.thetaE
          rw [if_neg (by simp [isP, Base.ty, base, comOnly]), hdh 3 (by decide), hq, Expr.sadd, if_neg (fun e => nomatch e), if_neg (fun e => nomatch e)]
        rw [this]
        show cs (ρ _ + ρ _) = _
        rw [h _ (by decide), h _ (by decide)]
        simp [cs]
      rw [Base.linkRot, ha, Base.alphaE, hdh 1 (by decide), z _ _ (by decide)]
      ext a b
      fin_cases a <;> fin_cases b <;> simp [rX, rZ, Matrix.mul_apply, Fin.sum_univ_three]
    rw [Base.rotV, Base.val_R0_succ, hw2l, hl, Matrix.mul_one]
  have hax : (base comOnly).axis ρ 1 = ![0, 0, 1] := by
    rw [Base.axis]
    show Matrix.mulVec ((base comOnly).rotV ρ 1) e3 = _
    rw [hR, Matrix.one_mulVec]
    rfl
  have hv : SX.val ρ ((base comOnly).posJac ((base comOnly).Ocm 0) 0) 3 (base comOnly).n 1 ⟨0, by decide⟩ = ρ ⟨"par_DYN", 1⟩ := by
    rw [Base.val_posJac, if_pos (by decide), Base.vec_posCol, hax, Base.vec_Ocm, hR, Matrix.one_mulVec]
    have h0 : (base comOnly).comV ρ 0 0 = ρ ⟨"par_DYN", 1⟩ := by
      show Expr.eval ρ ((base comOnly).dyn.e 1 0) = _
      rw [hcom]
      rfl
    rw [show (base comOnly).posV ρ (0 + 1) + (base comOnly).comV ρ 0 - SX.vec ρ ((base comOnly).P0 (0 + 1)) 3 = (base comOnly).comV ρ 0 from
      add_sub_cancel_left _ _]
    rw [← h0]
    have hp : (base comOnly).pri 0 = 0 := by unfold Base.pri; rw [if_neg (by simp [isP, Base.ty, base, comOnly])]
    have hr : (base comOnly).rev 0 = 1 := by unfold Base.rev; rw [if_neg (by simp [isP, Base.ty, base, comOnly])]
    simp [hp, hr, hat, dotProduct, Fin.sum_univ_three]
  exact hv

end Ex

/-- C36 is false for inertial parameters as well: with one revolute joint and only one coordinate of the centre of mass symbolic, after loading the file
the getter of the Jacobian of the centre of mass does not return what `get` returns (it uses the mass in place of the coordinate). -/
theorem C36_fails [Fl] {name : String} (hnm : RobotName name) : ∃ (y : Yaml) (c : Conf), Describes y c ∧ JointsOk c ∧ ∃ r s1, robotFromFile name (some y) true = .ok r ∧
    Wrap.loadConf (cfgOf r) (some y) true (init (cfgOf r)) = some s1 ∧ "J_cm_1" ∈ library c ∧
      ¬ ∃ m r', Robot.get "J_cm_1" r = .ok m r' ∧ getter r "J_cm_1" s1 = .value m := by
  have h := Ex.describes_comOnly
  have hj := Ex.joints_comOnly
  refine ⟨_, _, h, hj, ?_⟩
  obtain ⟨r, e, hd⟩ := fromFile_ok h hj.1 (typed_of hj) hnm
  obtain ⟨r1, s1, e1, o1, g1, p1, l1⟩ := Pair.steps h [.load true] (pair_init hd) (by simp [Step.Fits])
  have hl := l1 (.inr ⟨true, List.mem_singleton.2 rfl⟩)
  obtain rfl : r = r1 := Option.some.inj e1
  have hv : (Fn.Jcm 1).Valid Ex.comOnly := by simp only [Fn.Valid]; decide
  refine ⟨r, s1, e, ?_, Fn.name_mem.2 hv, fun hag => ?_⟩
  · rw [cfgOf_fixed hd.toFixed]
    simp only [List.map_cons, List.map_nil, runAll, Step.onClass, Call.run] at g1
    cases hx : Wrap.loadConf (cfg Ex.comOnly) (some (Ex.fileOf Ex.comOnly)) true (init (cfg Ex.comOnly)) <;> rw [hx] at g1
    · cases g1
    · simpa [runAll] using g1
  obtain ⟨ks, hr⟩ := p1.live.reg ((Fn.Jcm 1).reg Ex.comOnly) ⟨_, hv, rfl⟩
  have hks : ks = [.q, .DH, .W2L, .DYN] := by
    obtain ⟨sure, pos, e1, e2, e⟩ := hr.keys
    have e1' : sure = [.q] := List.map_injective_iff.2 (fun a b e => Key.str_inj e) e1.symm
    have e2' : pos = [.DH, .W2L, .DYN] := List.map_injective_iff.2 (fun a b e => Key.str_inj e) e2.symm
    rw [e, e1', e2']
    rfl
  subst hks
  have hq : r.arg "q" = [some 0] := hd.arg .q
  have i1 : inVals Ex.comOnly r .q = some [(⟨"q", 0⟩, some 0)] := by
    show (fitInput 1 (r.arg "q")).map _ = _
    rw [hq]
    rfl
  have fit : ∀ {k : Key} {l : List Num}, r.arg k.str = l → l.length = (k.vars Ex.comOnly).length →
      inVals Ex.comOnly r k = some (List.zip (k.vars Ex.comOnly) l) := by
    intro k l h1 h2
    unfold inVals fitInput
    rw [h1, if_pos h2]
    rfl
  have rd : ∀ {k : Key} {l : List Num}, s1.vec k.field = l → (k.vars Ex.comOnly).length ≤ l.length →
      readKey Ex.comOnly s1 k = some (List.zip (k.vars Ex.comOnly) l) := by
    intro k l h1 h2
    unfold readKey readInput
    rw [h1, if_pos h2]
  have hin : [Key.q, .DH, .W2L, .DYN].mapM (inVals Ex.comOnly r) = some [List.zip (Key.q.vars Ex.comOnly) [some 0],
      List.zip (Key.DH.vars Ex.comOnly) (kept Ex.comOnly .DH), List.zip (Key.W2L.vars Ex.comOnly) (kept Ex.comOnly .W2L),
      List.zip (Key.DYN.vars Ex.comOnly) (kept Ex.comOnly .DYN)] := by
    simp only [List.mapM_cons, List.mapM_nil, fit (k := .q) hq rfl, fit (k := .DH) (p1.live.par .DH rfl trivial) rfl, fit (k := .W2L) (p1.live.par .W2L rfl trivial) rfl,
      fit (k := .DYN) (p1.live.par .DYN rfl trivial) rfl]
    rfl
  have hread : [Key.q, .DH, .W2L, .DYN].mapM (readKey Ex.comOnly s1) = some [List.zip (Key.q.vars Ex.comOnly) [some 0],
      List.zip (Key.DH.vars Ex.comOnly) (kept Ex.comOnly .DH), List.zip (Key.W2L.vars Ex.comOnly) (kept Ex.comOnly .W2L),
      List.zip (Key.DYN.vars Ex.comOnly) (nums (10 * Ex.comOnly.n) Ex.comOnly.dyn)] := by
    simp only [List.mapM_cons, List.mapM_nil, rd (k := .q) ((p1.var .q rfl trivial).symm.trans hq) le_rfl, rd (k := .DH) hl.dh le_rfl, rd (k := .W2L) hl.w2l le_rfl,
      rd (k := .DYN) hl.dyn (by decide)]
    rfl
  have key : ∀ {x : ℝ} {lx : List Num}, List.zip (Key.DYN.vars Ex.comOnly) lx = [(⟨"par_DYN", 1⟩, some x)] →
      (∀ p ∈ [List.zip (Key.q.vars Ex.comOnly) [some 0], List.zip (Key.DH.vars Ex.comOnly) (kept Ex.comOnly .DH),
        List.zip (Key.W2L.vars Ex.comOnly) (kept Ex.comOnly .W2L), List.zip (Key.DYN.vars Ex.comOnly) lx].flatten, p.2 ≠ none) ∧
      ((((Fn.Jcm 1).reg Ex.comOnly).expr.e 1 0).eval fun v => ((bound [List.zip (Key.q.vars Ex.comOnly) [some 0],
        List.zip (Key.DH.vars Ex.comOnly) (kept Ex.comOnly .DH), List.zip (Key.W2L.vars Ex.comOnly) (kept Ex.comOnly .W2L),
        List.zip (Key.DYN.vars Ex.comOnly) lx].flatten v).join).getD 0) = x := by
    intro x lx hx
    have hfl : [List.zip (Key.q.vars Ex.comOnly) [some 0], List.zip (Key.DH.vars Ex.comOnly) (kept Ex.comOnly .DH),
        List.zip (Key.W2L.vars Ex.comOnly) (kept Ex.comOnly .W2L), List.zip (Key.DYN.vars Ex.comOnly) lx].flatten =
        [(⟨"q", 0⟩, some 0), (⟨"DHtable", 0⟩, some 0), (⟨"DHtable", 1⟩, some 0), (⟨"DHtable", 2⟩, some 0), (⟨"DHtable", 3⟩, some 0),
          (⟨"world2L0", 0⟩, some 0), (⟨"world2L0", 1⟩, some 0), (⟨"world2L0", 2⟩, some 0), (⟨"world2L0", 3⟩, some 0), (⟨"world2L0", 4⟩, some 0),
          (⟨"world2L0", 5⟩, some 0), (⟨"par_DYN", 1⟩, some x)] := by
      rw [hx]
      rfl
    rw [hfl]
    refine ⟨by simp, (Ex.lever_comOnly fun v hv => ?_).trans ?_⟩
    · have : ∀ l : List (Var × Num), (∀ p ∈ l, p.1 = v → p.2 = some 0) → ((bound l v).join).getD 0 = 0 := by
        intro l hp
        unfold bound
        generalize hf : l.find? _ = o
        rcases o with _ | p
        · rfl
        · rw [Option.map_some, hp p (List.mem_of_find?_eq_some hf) (by simpa using List.find?_some hf)]
          rfl
      refine this _ fun p hp e => ?_
      subst e
      simp only [List.mem_cons, List.not_mem_nil, or_false] at hp
      rcases hp with rfl | rfl | rfl | rfl | rfl | rfl | rfl | rfl | rfl | rfl | rfl | rfl <;> first | rfl | exact absurd rfl hv
    · simp [bound]
  have k1 := key (x := 2) (lx := kept Ex.comOnly .DYN) (by
    show [((⟨"par_DYN", 1⟩ : Var), some ((1 : ℕ) + 1 : ℝ))] = _
    norm_num)
  have k2 := key (x := 1) (lx := nums (10 * Ex.comOnly.n) Ex.comOnly.dyn) (by
    show [((⟨"par_DYN", 1⟩ : Var), some ((0 : ℕ) + 1 : ℝ))] = _
    norm_num)
  have := agree_entry hr hin hread k1.1 k2.1 hag (a := 1) (b := 0) (by show 1 < 6; decide) (by show 0 < 1; decide)
  rw [k1.2, k2.2] at this
  norm_num at this

namespace Ex

/-- Some inertial parameters symbolic, the symbolic ones first; the actuator parameters all or not at all. -/
def front : Conf := { mixed with
  fdyn := fun i => if i < 7 then 1 else 0
  fdl := fun i => if i < 2 then 1 else 0
  fK := fun _ => 0 }

theorem aligned_front : Aligned front where
  dyn := ⟨(List.range 13).map fun i => ((i + 7 : ℕ) : ℝ) + 1, by simp [front, mixed, Conf.n, List.range, List.range.loop]; norm_num⟩
  dl := ⟨[2, 3], by simp [front, mixed, Conf.n, List.range, List.range.loop]⟩
  K := fun _ => ⟨_, rfl⟩
  D := fun _ => ⟨_, rfl⟩
  Dm := fun _ => ⟨[], rfl⟩
  Mm := fun _ => ⟨[], rfl⟩

/-- A configuration and a history to which `C36_partial` applies. -/
example : Describes (fileOf front) front ∧ JointsOk front ∧ Aligned front ∧
    (∀ st ∈ [Step.load false, .set .q [some 1, some 2], .set .x [some 3], .load true, .set .w (List.replicate 6 (some 4))], st.Fits front) :=
  ⟨describes_fileOf (fun h => nomatch h), joints_mixed, aligned_front, by simp [Step.Fits, components]; decide⟩

/-- A configuration with elastic joints for which `C36_needs_aligned` excludes agreement. -/
example : Describes (fileOf mixed) mixed ∧ JointsOk mixed ∧ ¬ InFront (mixed.dlO * mixed.n) mixed.fdl mixed.dl := by
  refine ⟨describes_mixed, joints_mixed, fun ⟨l, hl⟩ => ?_⟩
  simp [mixed, Conf.n, List.range, List.range.loop] at hl

end Ex

end

end Thunder
