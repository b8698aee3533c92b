import Verif.Lemmas.Tune
import Verif.Props.AsRead

/-!
# Changing the symbolic parameters of an object of the generated class: C73
-/

open scoped Classical
open Matrix

namespace Thunder

noncomputable section

open Spec Robot

variable [Fl] {y : Yaml} {c : Conf}

/-- C73: a new object loads the file; then variables are set, parameters are set and the file is loaded, in any order.  The getters answer for the
mechanism of the file in which the symbolic parameters are those set last. -/
theorem C73_history (h : Describes y c) (hj : JointsOk c) {name : String} {g : Robot} (e : robotFromFile name (some y) true = .ok g) (u : Bool) {l : List Tuning}
    (hl : ∀ t ∈ l, t.Fits c) :
    ∃ o, Wrap.runAll (Wrap.cfgOf g) ((.load u :: l).map (Tuning.call y c)) (Wrap.init (Wrap.cfgOf g)) = some o ∧
      (∀ f, o.vec (varMember f) = lastVar c f l) ∧
      ∀ s : Spec.State (l.foldl (Tuning.effect c) (asRead c)), Moves _ s o → Generated y (l.foldl (Tuning.effect c) (asRead c)) s g o := by
  obtain ⟨g', e', hd⟩ := fromFile_ok h hj.1 (typed_of hj) (robotName_of_ok h e)
  obtain rfl : g' = g := by rw [e] at e'; cases e'; rfl
  rw [Wrap.cfgOf_fixed hd.toFixed]
  obtain ⟨o₁, e₁, h1, h2, h3, h4⟩ := Wrap.loadConf_ok h u (Wrap.sized_init (Wrap.cfg c)) (Wrap.symbs_init c)
  obtain ⟨o, e₂, ht, hv⟩ := (Wrap.tuned_load h3 h1 h2).steps h l hl
  refine ⟨o, ?_, fun f => ?_, fun s hm => ⟨⟨c, h, hj, ht.ret⟩, ⟨name, e⟩, ht.stores hm⟩⟩
  · rw [List.map_cons, Wrap.runAll, Tuning.call, Wrap.Call.run, e₁]
    exact e₂
  · have hf : f.field = varMember f := by cases f <;> rfl
    rw [← hf, hv f]
    unfold lastVar
    congr 1
    have := h4 (Wrap.varKey f) (Wrap.varKey_isVar f)
    rw [Wrap.varKey_field] at this
    rw [this]
    show List.replicate ((Wrap.cfg c).size f.field) _ = _
    rw [Wrap.components_eq]
    cases f <;> rfl

omit [Fl] in
/-- C73: what a setter changes.  The symbolic entries of its vector, in their order, become the numbers given; numeric entries and other vectors remain. -/
theorem C73_entries (c : Conf) (v : ℕ → ℝ) (p : ParList) :
    (∀ k i, (symbolIdx (p.size c) (p.flag c))[k]? = some i → p.val (retune c v p) i = v k) ∧
    (∀ i, p.flag c i = 0 → p.val (retune c v p) i = p.val c i) ∧ ∀ p' ≠ p, p'.val (retune c v p) = p'.val c := by
  refine ⟨fun k i hi => ?_, fun i hi => ?_, fun p' hp => val_retune_ne _ _ hp⟩
  · have h1 : (symbolics (p.size c) (p.flag c) (p.val (retune c v p)))[k]? = some (some (p.val (retune c v p) i)) := by
      unfold symbolics
      rw [List.getElem?_map, show ((List.range (p.size c)).filter fun i => p.flag c i ≠ 0)[k]? = some i from hi]
      rfl
    rw [val_retune, symbolics_placed, ← val_retune] at h1
    unfold nums at h1
    rw [List.getElem?_map] at h1
    cases hk : (List.range (before (p.flag c) (p.size c)))[k]? with
    | none => rw [hk] at h1; cases h1
    | some j =>
      rw [hk] at h1
      obtain ⟨-, rfl⟩ := List.getElem?_eq_some_iff.1 hk |>.imp fun _ h => (by simpa using h : k = j)
      simpa using h1.symm
  · rw [val_retune, placed, if_pos hi]

omit [Fl] in
/-- C73: the setters for links and actuators expect a full vector, but take the symbolic parameters from its front.  They get the values at their own places
if and only if these are the first ones. -/
theorem C73_front (c : Conf) (v : ℕ → ℝ) {p : ParList} (hp : p.kinematic = false) :
    p.expects c = p.size c ∧ ((∀ i < p.size c, p.flag c i ≠ 0 → p.val (retune c v p) i = v i) ↔ InFront (p.size c) (p.flag c) v) := by
  refine ⟨by rw [ParList.expects, hp]; rfl, ?_⟩
  rw [inFront_iff, val_retune]
  refine forall₂_congr fun i _ => ?_
  by_cases h0 : p.flag c i = 0 <;> simp [placed, fromFront, h0]

omit [Fl] in
/-- C73: one number per symbolic entry is not accepted by these setters when there are numeric entries, and nothing that the getters read changes. -/
theorem C73_ignored {p : ParList} (hp : p.kinematic = false) (hs : (symbolIdx (p.size c) (p.flag c)).length < p.size c) (v : ℕ → ℝ) {calls : List Wrap.Call} {o : Wrap.Obj}
    (e : Wrap.runAll (Wrap.cfg c) calls (Wrap.init (Wrap.cfg c)) = some o) :
    ∃ o', (setter (nums (symbolIdx (p.size c) (p.flag c)).length v) p).run (Wrap.cfg c) o = some o' ∧ ∀ f, f ≠ .REG → o'.vec f = o.vec f := by
  have hsz := Wrap.sized_runAll calls (Wrap.sized_init _) e
  have hl : (o.vec p.field).length = p.size c := by
    rw [hsz _ (by cases p <;> first | exact id | cases hp), Wrap.size_par p hp, ParList.expects, hp]
    rfl
  have hne : ¬ (nums (symbolIdx (p.size c) (p.flag c)).length v).length = (o.vec p.field).length := by
    rw [Wrap.length_nums, hl]
    exact hs.ne
  cases p <;> first
    | (cases hp; done)
    | exact ⟨o, congrArg Wrap.Out.caught (if_neg hne), fun _ _ => rfl⟩
    | exact ⟨_, Wrap.run_setDYN_wrong hsz fun e' => hne (e'.trans hl.symm), fun f hf => Wrap.set_vec_ne _ _ hf⟩

omit [Fl] in
/-- C73: without loading a file first, the numbers for the symbolic entries are not accepted when there are numeric entries: the object remains as it is. -/
theorem C73_new {p : ParList} (hs : (symbolIdx (p.size c) (p.flag c)).length < p.size c) (v : ℕ → ℝ) :
    ∃ o', (setter (nums (symbolIdx (p.size c) (p.flag c)).length v) p).run (Wrap.cfg c) (Wrap.init (Wrap.cfg c)) = some o' ∧
      ∀ f, f ≠ .REG → o'.vec f = (Wrap.init (Wrap.cfg c)).vec f := by
  cases hp : p.kinematic with
  | false => exact C73_ignored (calls := []) hp hs v rfl
  | true =>
    have hne : ¬ (nums (symbolIdx (p.size c) (p.flag c)).length v).length = ((Wrap.init (Wrap.cfg c)).vec p.field).length := by
      have : ((Wrap.init (Wrap.cfg c)).vec p.field).length = p.size c := by
        cases p <;> first | (cases hp; done) | simp [Wrap.init, ParList.field, Wrap.Cfg.size, ParList.size, Wrap.cfg, Nat.mul_comm]
      rw [Wrap.length_nums, this]
      exact hs.ne
    cases p <;> first
      | (cases hp; done)
      | exact ⟨_, congrArg Wrap.Out.caught (if_neg hne), fun _ _ => rfl⟩

omit [Fl] in
/-- C73: numbers without a zero mass are the linear parameters of some bodies. -/
theorem C73_bodies {n : ℕ} {x : ℕ → ℝ} (hx : ∀ i < n, x (10 * i) ≠ 0) : ∃ d, (∀ i < n, mass d i ≠ 0) ∧ ∀ k < 10 * n, reg d k = x k := by
  refine ⟨dynPar x, fun i hi => ?_, fun k hk => reg_dynPar hx hk⟩
  have := reg_dynPar hx (k := 10 * i) (by omega)
  have h0 : reg (dynPar x) (10 * i) = mass (dynPar x) i := by
    unfold reg
    rw [show 10 * i / 10 = i by omega, show 10 * i % 10 = 0 by omega]
    rfl
  rw [← h0, this]
  exact hx i hi

/-- C73, adaptive control: with all inertial parameters symbolic, after `set_par_DYN` or `set_par_REG` and any settings of the variables, the matrices
returned are those of the bodies given, and the returned regressor times their linear parameters is the torque computed from the returned matrices. -/
theorem C73_adaptive (h : Describes y c) (hj : JointsOk c) (hU : UnitNumeric c) (ha : ∀ i < 10 * c.n, c.fdyn i ≠ 0) {name : String} {g : Robot}
    (e : robotFromFile name (some y) true = .ok g) (u : Bool) {l l' : List Tuning} {t : Tuning} {d : ℕ → ℝ} (ht : t = .par .DYN d ∨ t = .lin d)
    (hd : ∀ i < c.n, mass d i ≠ 0) (hl : ∀ t ∈ l, t.Fits c) (hl' : ∀ t ∈ l', ∃ f v, t = .var f v ∧ v.length = components c f) :
    ∃ c₂ o, Retuned c c₂ ∧ (∀ i < 10 * c₂.n, c₂.dyn i = d i) ∧
      Wrap.runAll (Wrap.cfgOf g) ((.load u :: (l ++ t :: l')).map (Tuning.call y c)) (Wrap.init (Wrap.cfgOf g)) = some o ∧
      (∀ f, o.vec (varMember f) = lastVar c f (l ++ t :: l')) ∧
      ∀ s : Spec.State c₂, Moves c₂ s o → ∃ (Y : Matrix (Fin c₂.n) (Fin (10 * c₂.n)) ℝ) (M C : Matrix (Fin c₂.n) (Fin c₂.n) ℝ) (G : Fin c₂.n → ℝ),
        Returns (classAnswers g o) "Yr" Y ∧ Returns (classAnswers g o) "M" M ∧ Returns (classAnswers g o) "C" C ∧ ReturnsVec (classAnswers g o) "G" G ∧
        M = massOf c₂ s.q ∧ C = coriolisOf c₂ s.q s.dq ∧ G = gravityOf c₂ s.q ∧
        Y *ᵥ (fun k => reg d k) = M *ᵥ s.ddqr + C *ᵥ s.dqr + G := by
  have hfit : ∀ t' ∈ l ++ t :: l', t'.Fits c := by
    intro t' ht'
    rcases List.mem_append.1 ht' with h1 | h1
    · exact hl t' h1
    rcases List.mem_cons.1 h1 with rfl | h1
    · rcases ht with rfl | rfl
      · exact trivial
      · exact hd
    · obtain ⟨f, v, rfl, hv⟩ := hl' t' h1
      exact hv
  obtain ⟨o, h1, h2, h3⟩ := C73_history h hj e u hfit
  have hfold : ∀ (l' : List Tuning) (c₁ : Conf), (∀ t ∈ l', ∃ f v, t = .var f v ∧ v.length = components c f) → l'.foldl (Tuning.effect c) c₁ = c₁ := by
    intro l'
    induction l' with
    | nil => intro _ _; rfl
    | cons t l' ih =>
      intro c₁ hh
      obtain ⟨f, v, rfl, -⟩ := hh t List.mem_cons_self
      exact ih c₁ fun t ht => hh t (List.mem_cons_of_mem _ ht)
  have hret : ∀ (l : List Tuning) (c₁ : Conf), Retuned c c₁ → Retuned c (l.foldl (Tuning.effect c) c₁) := by
    intro l
    induction l with
    | nil => intro _ hh; exact hh
    | cons t l ih =>
      intro c₁ hh
      refine ih _ ?_
      cases t with
      | var f v => exact hh
      | load u => exact retuned_asRead c
      | par p v => exact retuned_trans hh (retuned_retune c₁ v p)
      | lin d => exact retuned_trans hh (retuned_retune c₁ d .DYN)
  have hc₂ : (l ++ t :: l').foldl (Tuning.effect c) (asRead c) = retune (l.foldl (Tuning.effect c) (asRead c)) d .DYN := by
    rw [List.foldl_append, List.foldl_cons, hfold l' _ hl']
    rcases ht with rfl | rfl <;> rfl
  have r₁ := hret l _ (retuned_asRead c)
  rw [hc₂] at h3
  obtain ⟨c₁, hc₁⟩ : ∃ c₁, l.foldl (Tuning.effect c) (asRead c) = c₁ := ⟨_, rfl⟩
  rw [hc₁] at h3 r₁
  have r₂ := retuned_trans r₁ (retuned_retune c₁ d .DYN)
  have n₂ : (retune c₁ d .DYN).n = c.n := (SameForm.retuned r₂).n
  have hdyn : ∀ i < 10 * (retune c₁ d .DYN).n, (retune c₁ d .DYN).dyn i = d i := fun i hi => by
    rw [n₂] at hi
    refine placed_all (k := 10 * c.n) (fun i hi => ?_) _ _ hi
    rw [r₁.fdyn]
    exact ha i hi
  refine ⟨_, o, r₂, hdyn, h1, h2, fun s hm => ?_⟩
  have src : Source y (retune c₁ d .DYN) s (classAnswers g o) := .generated (h3 s hm)
  have hU₂ := unit_retuned r₂ hU
  obtain ⟨Y, YM, YC, YG, hY, -, -, -, -, hyr⟩ := C59_inertial src hU₂
  obtain ⟨hM, hC, -, hG⟩ := C58_matrices src hU₂
  refine ⟨Y, _, _, _, hY, hM, hC, hG, rfl, rfl, rfl, ?_⟩
  have := (hyr (retune c₁ d .DYN).dyn).2.2.2
  have hr : ∀ k : Fin (10 * (retune c₁ d .DYN).n), reg (retune c₁ d .DYN).dyn k = reg d k := fun k => reg_congr hdyn k.2
  simp only [hr] at this
  exact this

namespace Ex

/-- The robot of the README: only the third entry of a vector (here gravity) is symbolic; all inertial parameters are. -/
def third : Conf := { comOnly with
  fee := fun _ => 1
  fg := fun i => if i = 2 then 1 else 0
  g := fun i => i + 1
  fdyn := fun _ => 1 }

omit [Fl] in
theorem describes_third : Describes (Ex.fileOf third) third := describes_fileOf fun _ => ⟨rfl, rfl, rfl⟩
omit [Fl] in
theorem joints_third : JointsOk third := ⟨Nat.one_pos, by simp [third, comOnly, jointTypes]⟩

end Ex

/-- The example of the README: gravity is (1, 2, 3) in the file, its third entry symbolic.  After loading, `set_par_gravity` with the single number 1 makes
it (1, 2, 1); on a new object the call is ignored. -/
example : (∀ g name, robotFromFile name (some (Ex.fileOf Ex.third)) true = .ok g →
      ∃ o, Wrap.runAll (Wrap.cfgOf g) [.loadConf (some (Ex.fileOf Ex.third)) true, .setPar .G [some 1]] (Wrap.init (Wrap.cfgOf g)) = some o ∧
        ∀ s, Moves _ s o → Generated (Ex.fileOf Ex.third) (retune (asRead Ex.third) (fun _ => 1) .G) s g o) ∧
    (List.range 3).map (retune (asRead Ex.third) (fun _ => 1) .G).g = [1, 2, 1] ∧
    (Wrap.Call.setPar .G [some 1]).run (Wrap.cfg Ex.third) (Wrap.init (Wrap.cfg Ex.third)) = some (Wrap.init (Wrap.cfg Ex.third)) := by
  refine ⟨fun g name e => ?_, ?_, ?_⟩
  · obtain ⟨o, h1, -, h3⟩ := C73_history Ex.describes_third Ex.joints_third e true (l := [.par .G fun _ => 1]) (by simp [Tuning.Fits])
    refine ⟨o, ?_, h3⟩
    have hs : nums (ParList.G.expects Ex.third) (fun _ => 1) = [some 1] := by
      simp [ParList.expects, ParList.kinematic, symbolIdx, ParList.size, ParList.flag, Ex.third, List.range, List.range.loop, nums]
    simpa [Tuning.call, setter, hs] using h1
  · simp [retune, placed, asRead, Ex.third, List.range, List.range.loop]
    norm_num
  · simp [Wrap.Call.run, Wrap.setPar, Wrap.init, Wrap.ParField.field, Wrap.Cfg.size, Wrap.Out.caught]

/-- The hypotheses of `C73_ignored`, `C73_new` and `C73_front` are met by the robot with one symbolic coordinate of the centre of mass. -/
example : ParList.DYN.kinematic = false ∧ (symbolIdx (ParList.DYN.size Ex.comOnly) (ParList.DYN.flag Ex.comOnly)).length < ParList.DYN.size Ex.comOnly ∧
    ¬ InFront (ParList.DYN.size Ex.comOnly) (ParList.DYN.flag Ex.comOnly) Ex.comOnly.dyn := by
  refine ⟨rfl, ?_, fun h => ?_⟩
  · simp [symbolIdx, ParList.size, ParList.flag, Ex.comOnly, Conf.n, List.range, List.range.loop]
  · have := inFront_iff.1 h 1 (by simp [ParList.size, Ex.comOnly, Conf.n])
    simp [fromFront, ParList.flag, Ex.comOnly, before, List.range, List.range.loop] at this

/-- Those of `C73_adaptive` are met by the robot of the README. -/
example : UnitNumeric Ex.third ∧ (∀ i < 10 * Ex.third.n, Ex.third.fdyn i ≠ 0) ∧ ∀ i < Ex.third.n, mass (fun k => (k : ℝ) + 1) i ≠ 0 := by
  refine ⟨Ex.unit_of_symbolic (fun _ => rfl) (fun _ => rfl) fun _ => rfl, fun _ _ => one_ne_zero, fun i _ => ?_⟩
  unfold mass
  positivity

end

end Thunder
