import Verif.Lemmas.AsRead
import Verif.Lemmas.Generated
import Verif.Props.System

/-!
# What the generated class answers after a file has been loaded, whatever is symbolic: C36
-/

open scoped Classical
open Matrix

namespace Thunder

noncomputable section

open Spec Robot

variable [Fl] {y : Yaml} {c : Conf}

/-- C36, for every pattern: after the file has been loaded, in any order with settings of the variables, an object of the generated class is one for the
mechanism `asRead c` (so all that C56 to C61 say about an object holds with the parameters of `asRead c`). -/
theorem C36_exact (h : Describes y c) (hj : JointsOk c) {name : String} {g : Robot} (e : robotFromFile name (some y) true = .ok g) {steps : List Step}
    (hf : ∀ st ∈ steps, st.Fits c) (hl : ∃ u, .load u ∈ steps) :
    ∃ o, Wrap.runAll (Wrap.cfgOf g) (steps.map (Step.onClass y)) (Wrap.init (Wrap.cfgOf g)) = some o ∧
      (∀ f, o.vec (varMember f) = lastSet c f steps) ∧ ∀ s : State (asRead c), Moves (asRead c) s o → Generated y (asRead c) s g o := by
  obtain ⟨g', e', hd⟩ := fromFile_ok h hj.1 (typed_of hj) (robotName_of_ok h e)
  obtain rfl : g' = g := by rw [e] at e'; cases e'; rfl
  rw [Wrap.cfgOf_fixed hd.toFixed]
  obtain ⟨r1, o, -, -, g1, p1, l1⟩ := Wrap.Pair.steps h steps (Wrap.pair_init hd) hf
  refine ⟨o, g1, fun f => ?_, fun s hm => ⟨⟨c, h, hj, retuned_asRead c⟩, ⟨name, e⟩, (l1 (.inr hl)).reads hm⟩⟩
  have h1 := Wrap.Pair.vec h f steps (Wrap.pair_init hd) hf g1
  have h2 : f.field = varMember f := by cases f <;> rfl
  rw [← h2, h1]
  unfold lastSet
  congr 1
  show List.replicate ((Wrap.cfg c).size f.field) _ = _
  rw [Wrap.components_eq]
  cases f <;> rfl

omit [Fl] in
/-- C36: the parameters in use are those of the file exactly when the symbolic ones come first in their vectors. -/
theorem C36_aligned (c : Conf) : Aligned c ↔
    (∀ i < 10 * c.n, (asRead c).dyn i = c.dyn i) ∧ (∀ i < c.dlO * c.n, (asRead c).dl i = c.dl i) ∧
    (c.elastic = true → (∀ i < c.kO * c.ne, (asRead c).K i = c.K i) ∧ (∀ i < c.dO * c.ne, (asRead c).D i = c.D i) ∧
      (∀ i < c.dmO * c.ne, (asRead c).Dm i = c.Dm i) ∧ ∀ i < c.ne, (asRead c).Mm i = c.Mm i) :=
  ⟨fun h => ⟨inFront_iff.1 h.dyn, inFront_iff.1 h.dl, fun he => ⟨inFront_iff.1 (h.K he), inFront_iff.1 (h.D he), inFront_iff.1 (h.Dm he), inFront_iff.1 (h.Mm he)⟩⟩,
    fun h => ⟨inFront_iff.2 h.1, inFront_iff.2 h.2.1, fun he => inFront_iff.2 (h.2.2 he).1, fun he => inFront_iff.2 (h.2.2 he).2.1,
      fun he => inFront_iff.2 (h.2.2 he).2.2.1, fun he => inFront_iff.2 (h.2.2 he).2.2.2⟩⟩

/-- C36: an object on which the file has been loaded, with the variables `s`. -/
theorem C36_loaded (h : Describes y c) (hj : JointsOk c) {name : String} {g : Robot} (e : robotFromFile name (some y) true = .ok g) {s : Spec.State c}
    {o : Wrap.Obj} (ho : LoadedAt y c s g o) : Generated y (asRead c) (State.read s) g o := by
  obtain ⟨steps, hf, hl, e1, hm⟩ := ho
  obtain ⟨o', e2, -, h2⟩ := C36_exact h hj e hf hl
  obtain rfl : o = o' := by rw [e1] at e2; exact Option.some.inj e2
  exact h2 _ (moves_read hm)

/-- C36: there is such an object for all values of the variables. -/
theorem C36_reachable (h : Describes y c) (hj : JointsOk c) {name : String} {g : Robot} (e : robotFromFile name (some y) true = .ok g) (s : Spec.State c) :
    ∃ o, LoadedAt y c s g o := by
  have hfit : ∀ st ∈ ([.load true, .set .q (stored s.q), .set .dq (stored s.dq), .set .ddq (stored s.ddq), .set .d3q (stored s.d3q), .set .dqr (stored s.dqr),
      .set .ddqr (stored s.ddqr), .set .w (stored s.w), .set .x (stored s.x), .set .dx (stored s.dx), .set .ddx (stored s.ddx)] : List Step), st.Fits c := by
    intro st hst
    simp only [List.mem_cons, List.not_mem_nil, or_false] at hst
    rcases hst with rfl | rfl | rfl | rfl | rfl | rfl | rfl | rfl | rfl | rfl | rfl <;> simp [Step.Fits, stored, components]
  obtain ⟨o, e1, h1, -⟩ := C36_exact h hj e hfit ⟨true, List.mem_cons_self⟩
  exact ⟨o, _, hfit, ⟨true, List.mem_cons_self⟩, e1, h1 .q, h1 .dq, h1 .ddq, h1 .d3q, h1 .dqr, h1 .ddqr, h1 .w, fun _ => h1 .x, fun _ => h1 .dx, fun _ => h1 .ddx⟩

/-- C36, exactly: robots built from the file and objects of the generated class that have loaded it, with the same values of the variables, always answer
the same if and only if the symbolic parameters of friction and actuators come first in their vectors, and the parameters of the links that the object
uses give the same mass matrix, gravity terms and Jacobians of the centres of mass. -/
theorem C36_iff (h : Describes y c) (hj : JointsOk c) (hU : UnitNumeric c) {name : String} {g : Robot} (e : robotFromFile name (some y) true = .ok g) :
    (∀ (s : Spec.State c) (r : Robot) (o : Wrap.Obj), Running y c s r → LoadedAt y c s g o → ∀ f ∈ library c, ∃ mat, answers r f mat ∧ classAnswers g o f mat) ↔
    (∀ q, massOf (asRead c) q = massOf c q ∧ gravityOf (asRead c) q = gravityOf c q ∧
      ∀ i < c.n, jacobianAt (fun q => linkFrame c q (i + 1)) (com (asRead c).dyn i) q = jacobianAt (fun q => linkFrame c q (i + 1)) (com c.dyn i) q) ∧
    InFront (c.dlO * c.n) c.fdl c.dl ∧ (c.elastic = true → InFront (c.kO * c.ne) c.fK c.K ∧ InFront (c.dO * c.ne) c.fD c.D ∧
      InFront (c.dmO * c.ne) c.fDm c.Dm ∧ InFront c.ne c.fMm c.Mm) := by
  have hF : ∀ q i, linkFrame (asRead c) q i = linkFrame c q i := by
    intro q i
    induction i with
    | zero => rfl
    | succ i ih => exact congrArg (· * _) ih
  have hU' : UnitNumeric (asRead c) := hU
  constructor
  · intro hag
    have base : ∀ s : Spec.State c, ∃ r o, Running y c s r ∧ LoadedAt y c s g o := fun s => by
      obtain ⟨r, hr⟩ := C56_reachable h hj (retuned_refl c) s
      obtain ⟨o, ho⟩ := C36_reachable h hj e s
      exact ⟨r, o, hr, ho⟩
    have same : ∀ (s : Spec.State c) (f : String), f ∈ library c → ∀ {a b : ℕ} {A B : Matrix (Fin a) (Fin b) ℝ},
        (∀ R, Source y (asRead c) (State.read s) R → Returns R f A) → (∀ R, Source y c s R → Returns R f B) → A = B := by
      intro s f hf a b A B hA hB
      obtain ⟨r, o, hr, ho⟩ := base s
      obtain ⟨mat, m1, m2⟩ := hag s r o hr ho f hf
      exact returns_inj (hA _ (.generated (C36_loaded h hj e ho))) (hB _ (.robot hr)) classAnswers_unique answers_unique ⟨mat, m2, m1⟩
    have mem : ∀ (F : Fn), F.Valid c → F.name ∈ library c := fun F hv => Fn.mem_library.2 ⟨F, hv, rfl⟩
    have diag : ∀ {m order : ℕ} {p p' : ℕ → ℝ}, (∀ k < order, gains m order k p = gains m order k p') → ∀ i < order * m, p i = p' i := by
      intro m order p p' hg i hi
      have ho : 0 < order := Nat.pos_of_ne_zero fun e => by simp [e] at hi
      have h1 := congrFun (congrFun (hg (i % order) (Nat.mod_lt _ ho)) ⟨i / order, Nat.div_lt_of_lt_mul hi⟩) ⟨i / order, Nat.div_lt_of_lt_mul hi⟩
      simp only [gains, diagonal_apply_eq] at h1
      rwa [Nat.div_add_mod'] at h1
    have z : Spec.State c := ⟨0, 0, 0, 0, 0, 0, 0, 0, 0, 0⟩
    refine ⟨fun q => ⟨?_, ?_, fun i hi => ?_⟩, ?_, fun he => ⟨?_, ?_, ?_, ?_⟩⟩
    · exact same ⟨q, 0, 0, 0, 0, 0, 0, 0, 0, 0⟩ "M" (mem .M trivial) (fun R hR => (C58_matrices hR hU').1) fun R hR => (C58_matrices hR hU).1
    · have := same ⟨q, 0, 0, 0, 0, 0, 0, 0, 0, 0⟩ "G" (mem .G trivial) (fun R hR => (C58_matrices hR hU').2.2.2) fun R hR => (C58_matrices hR hU).2.2.2
      funext i
      exact congrFun (congrFun this i) 0
    · have := same ⟨q, 0, 0, 0, 0, 0, 0, 0, 0, 0⟩ ("J_cm_" ++ toString (i + 1)) (mem (.Jcm (i + 1)) ⟨by omega, by omega⟩)
        (fun R hR => (C57_com hR hU' (i := i) hi).1) fun R hR => (C57_com hR hU hi).1
      simp only [hF] at this
      exact this
    · by_cases hd : 0 < c.dlO
      · exact inFront_iff.2 (diag fun k hk => same z ("Dl" ++ toString (k + 1)) (mem (.Dl (k + 1)) ⟨by omega, by omega⟩)
          (fun R hR => (C60_link hR hd).2 k hk) fun R hR => (C60_link hR hd).2 k hk)
      · exact inFront_iff.2 fun i hi => by rw [Nat.eq_zero_of_not_pos hd, Nat.zero_mul] at hi; omega
    · exact inFront_iff.2 (diag fun k hk => same z ("K" ++ toString (2 * k + 1)) (mem (.K k) ⟨he, hk⟩)
        (fun R hR => (C60_elastic hR he).2.1 k hk) fun R hR => (C60_elastic hR he).2.1 k hk)
    · exact inFront_iff.2 (diag fun k hk => same z ("D" ++ toString (k + 1)) (mem (.D (k + 1)) ⟨he, by omega, by omega⟩)
        (fun R hR => (C60_elastic hR he).2.2.2.1 k hk) fun R hR => (C60_elastic hR he).2.2.2.1 k hk)
    · exact inFront_iff.2 (diag fun k hk => same z ("Dm" ++ toString (k + 1)) (mem (.Dm (k + 1)) ⟨he, by omega, by omega⟩)
        (fun R hR => (C60_elastic hR he).2.2.2.2.2.1 k hk) fun R hR => (C60_elastic hR he).2.2.2.2.2.1 k hk)
    · have := diag (m := c.ne) (order := 1) (p := (asRead c).Mm) (p' := c.Mm) fun k hk => by
        obtain rfl : k = 0 := by omega
        exact same z "Mm" (mem .Mm he) (fun R hR => (C60_elastic hR he).2.2.2.2.2.2) fun R hR => (C60_elastic hR he).2.2.2.2.2.2
      exact inFront_iff.2 fun i hi => this i (by omega)
  · rintro ⟨hq, hdl, hel⟩ s r o hr ho f hf
    have hG := C36_loaded h hj e ho
    have SR : Source y c s (answers r) := .robot hr
    have SG : Source y (asRead c) (State.read s) (classAnswers g o) := .generated hG
    have both : ∀ {f : String} {a b : ℕ} {A B : Matrix (Fin a) (Fin b) ℝ}, Returns (answers r) f A → Returns (classAnswers g o) f B → B = A →
        ∃ mat, answers r f mat ∧ classAnswers g o f mat := by
      rintro f a b A B h1 h2 rfl
      exact returns_data h1 h2
    have hM : massOf (asRead c) = massOf c := funext fun q => (hq q).1
    have hGr : gravityOf (asRead c) = gravityOf c := funext fun q => (hq q).2.1
    have hC : coriolisOf (asRead c) = coriolisOf c := funext fun q => funext fun v => congrArg (fun A => christoffel A q v) hM
    obtain ⟨M₁, M₂, C₁, C₂, G₁, G₂, m1, c1, g1, m2, c2, g2, d1, d2⟩ := C58_rates SR hU
    obtain ⟨M₁', M₂', C₁', C₂', G₁', G₂', m1', c1', g1', m2', c2', g2', d1', d2'⟩ := C58_rates SG hU'
    let q : ℝ → Fin c.n → ℝ := fun t i => cubic (s.q i) (s.dq i) (s.ddq i) (s.d3q i) t
    let dq : ℝ → Fin c.n → ℝ := fun t i => cubic₁ (s.dq i) (s.ddq i) (s.d3q i) t
    let ddq : ℝ → Fin c.n → ℝ := fun t i => cubic₂ (s.ddq i) (s.d3q i) t
    have hq0 : q 0 = s.q := by funext i; simp [q, cubic]
    have hdq0 : dq 0 = s.dq := by funext i; simp [dq, cubic₁]
    have hddq0 : ddq 0 = s.ddq := by funext i; simp [ddq, cubic₂]
    have hq1 : ∀ x i, HasDerivAt (fun x => q x i) (dq x i) x := fun x i => cubic_deriv _ _ _ _ x
    have hdq1 : ∀ x i, HasDerivAt (fun x => dq x i) (ddq x i) x := fun x i => cubic₁_deriv _ _ _ x
    have hddq1 : ∀ i, HasDerivAt (fun x => ddq x i) (s.d3q i) 0 := fun i => cubic₂_deriv _ _ 0
    have hdq2 : ∀ i, HasDerivAt (fun x => dq x i) (s.ddq i) 0 := fun i => by
      have := hdq1 0 i
      rwa [hddq0] at this
    have D1 := d1 q dq 0 hq0 hdq0 (hq1 0) hdq2
    have D1' := d1' q dq 0 hq0 hdq0 (hq1 0) hdq2
    have D2 := d2 q dq ddq 0 hq0 hdq0 hddq0 hq1 hdq1 hddq1
    have D2' := d2' q dq ddq 0 hq0 hdq0 hddq0 hq1 hdq1 hddq1
    simp only [hM, hGr, hC] at D1' D2'
    obtain ⟨F, hv, rfl⟩ := Fn.mem_library.1 hf
    have gen : (∀ k ∈ F.pos c.n, k.isVar = true ∨ SameKey c k) → ∃ mat, answers r F.name mat ∧ classAnswers g o F.name mat := fun hk => by
      refine both (SR.gives F hv rfl rfl rfl rfl) (SG.gives F (((retuned_asRead c).valid F).symm ▸ hv) rfl rfl rfl rfl) ?_
      refine val_read hr hv hk (fun k hk => ?_) _ _
      cases F <;> simp only [Fn.sure] at hk <;> (try split_ifs at hk) <;> simp at hk <;> (try rcases hk with rfl | rfl | rfl | rfl) <;> rfl
    have kin : ∀ k ∈ ([.DH, .W2L, .EE, .grav] : List Key), k.isVar = true ∨ SameKey c k := by
      intro k hk
      simp only [List.mem_cons, List.not_mem_nil, or_false] at hk
      rcases hk with rfl | rfl | rfl | rfl <;> exact .inr fun _ _ => rfl
    have hdl' : SameKey c .Dl := fun i hi => inFront_iff.1 hdl i (by rw [Nat.mul_comm]; exact hi)
    have fd : ∀ {k : Key} {P : Prop}, P → (P → SameKey c k) → ∀ k' ∈ [k], k'.isVar = true ∨ SameKey c k' := by
      intro k P hP hs k' hk'
      rw [List.mem_singleton.1 hk']
      exact .inr (hs hP)
    have hK : c.elastic = true → SameKey c .K := fun he i hi => inFront_iff.1 (hel he).1 i (by rw [Nat.mul_comm, ← size_K he]; exact hi)
    have hD : c.elastic = true → SameKey c .D := fun he i hi => inFront_iff.1 (hel he).2.1 i (by rw [Nat.mul_comm, ← size_D he]; exact hi)
    have hDm : c.elastic = true → SameKey c .Dm := fun he i hi => inFront_iff.1 (hel he).2.2.1 i (by rw [Nat.mul_comm, ← size_Dm he]; exact hi)
    have hMm : c.elastic = true → SameKey c .Mm := fun he i hi => inFront_iff.1 (hel he).2.2.2 i (by rw [← size_Mm he]; exact hi)
    have ks : (∀ k ∈ F.pos c.n, k ∈ ([.DH, .W2L, .EE, .grav] : List Key)) → ∃ mat, answers r F.name mat ∧ classAnswers g o F.name mat := fun hk =>
      gen fun k hk' => kin k (hk k hk')
    cases F with
    | Jcm i =>
      obtain ⟨h1, h2⟩ := hv
      obtain ⟨i, rfl⟩ : ∃ j, i = j + 1 := ⟨i - 1, by omega⟩
      have a := (C57_com SR hU (i := i) (by omega)).1
      have b := (C57_com SG hU' (i := i) (show i < c.n by omega)).1
      simp only [hF] at b
      exact both a b ((hq s.q).2.2 i (by omega))
    | M => exact both (C58_matrices SR hU).1 (C58_matrices SG hU').1 (hq s.q).1
    | C => exact both (C58_matrices SR hU).2.1 (C58_matrices SG hU').2.1 (congrFun (congrFun hC _) _)
    | Cstd => exact both (C58_matrices SR hU).2.2.1 (C58_matrices SG hU').2.2.1 (congrFun (congrFun hC _) _)
    | G => exact both (C58_matrices SR hU).2.2.2 (C58_matrices SG hU').2.2.2 (by rw [show (State.read s).q = s.q from rfl, hGr]; rfl)
    | Mdot => exact both m1 m1' (by ext a b; exact (D1' a b).1.unique (D1 a b).1)
    | Cdot => exact both c1 c1' (by ext a b; exact (D1' a b).2.2.unique (D1 a b).2.2)
    | Gdot => exact both g1 g1' (by ext a b; exact (D1' a a).2.1.unique (D1 a a).2.1)
    | Mddot => exact both m2 m2' (by ext a b; exact (D2' a b).1.unique (D2 a b).1)
    | Cddot => exact both c2 c2' (by ext a b; exact (D2' a b).2.2.unique (D2 a b).2.2)
    | Gddot => exact both g2 g2' (by ext a b; exact (D2' a a).2.1.unique (D2 a a).2.1)
    | dl => exact gen (fd trivial fun _ => hdl')
    | Dl i => exact gen (fd trivial fun _ => hdl')
    | k => exact gen (fd hv.1 hK)
    | K i => exact gen (fd hv.1 hK)
    | d => exact gen (fd hv.1 hD)
    | D i => exact gen (fd hv.1 hD)
    | dm => exact gen (fd hv.1 hDm)
    | Dm i => exact gen (fd hv.1 hDm)
    | Mm => exact gen (fd hv hMm)
    | _ =>
      refine ks ?_
      dsimp only [Fn.pos]
      first
        | decide
        | (split_ifs <;> decide)

/-- Frames of an arm with prismatic joints only do not turn. -/
theorem rot_prismatic (hp : ∀ i < c.n, kindOf c i = .prismatic) (q q' : Fin c.n → ℝ) (i : ℕ) : rot (linkFrame c q i) = rot (linkFrame c q' i) := by
  suffices h : ∀ (i : ℕ) (a : Fin 4) (b : Fin 3), linkFrame c q i a b.castSucc = linkFrame c q' i a b.castSucc by
    ext a b
    exact h i a.castSucc b
  intro i
  induction i with
  | zero => exact fun _ _ => rfl
  | succ i ih =>
    intro a b
    have h0 := ih a 0
    have h1 := ih a 1
    have h2 := ih a 2
    simp only [Fin.castSucc_zero, Fin.castSucc_one, show (2 : Fin 3).castSucc = (2 : Fin 4) from rfl] at h0 h1 h2
    simp only [linkFrame, mul_apply, Fin.sum_univ_four, h0, h1, h2]
    split
    next hi =>
      simp only [linkOf, hp i hi]
      fin_cases b <;> simp [dh, mul_apply, Fin.sum_univ_four, Spec.trans, Spec.rotX, Spec.rotZ]
    · fin_cases b <;> simp

/-- C36: with prismatic joints only, the masses and the parameters of friction and actuators are all that matters. -/
theorem C36_prismatic (h : Describes y c) (hj : JointsOk c) (hU : UnitNumeric c) {name : String} {g : Robot} (e : robotFromFile name (some y) true = .ok g)
    (hp : ∀ i < c.n, kindOf c i = .prismatic) (hm : ∀ i < c.n, (asRead c).dyn (10 * i) = c.dyn (10 * i))
    (hdl : InFront (c.dlO * c.n) c.fdl c.dl) (hel : c.elastic = true → InFront (c.kO * c.ne) c.fK c.K ∧ InFront (c.dO * c.ne) c.fD c.D ∧
      InFront (c.dmO * c.ne) c.fDm c.Dm ∧ InFront c.ne c.fMm c.Mm)
    {s : Spec.State c} {r : Robot} {o : Wrap.Obj} (hr : Running y c s r) (ho : LoadedAt y c s g o) {f : String} (hf : f ∈ library c) :
    ∃ mat, answers r f mat ∧ classAnswers g o f mat := by
  have hF : ∀ q i, linkFrame (asRead c) q i = linkFrame c q i := by
    intro q i
    induction i with
    | zero => rfl
    | succ i ih => exact congrArg (· * _) ih
  have hd : ∀ (i : ℕ) (p p' : Fin 3 → ℝ) (k : ℝ → Fin c.n → ℝ) (t : ℝ) (a : Fin 3),
      deriv (fun t => point (linkFrame c (k t) (i + 1)) p a) t = deriv (fun t => point (linkFrame c (k t) (i + 1)) p' a) t := by
    intro i p p' k t a
    have h1 : ∀ p, (fun t => point (linkFrame c (k t) (i + 1)) p a) = fun t => pos (linkFrame c (k t) (i + 1)) a + (rot (linkFrame c 0 (i + 1)) *ᵥ p) a := by
      intro p
      funext t
      rw [point, rot_prismatic hp (k t) 0, Pi.add_apply]
    rw [h1, h1, deriv_add_const, deriv_add_const]
  have hω : ∀ (i : ℕ) (q v : Fin c.n → ℝ), (Matrix.of fun a b => deriv (fun s : ℝ => rot (linkFrame c (q + s • v) (i + 1)) a b) 0) = (0 : Matrix (Fin 3) (Fin 3) ℝ) := by
    intro i q v
    ext a b
    have : (fun s : ℝ => rot (linkFrame c (q + s • v) (i + 1)) a b) = fun _ => rot (linkFrame c 0 (i + 1)) a b := by
      funext s
      rw [rot_prismatic hp _ 0]
    rw [of_apply, this, deriv_const]
    rfl
  have hv : vee 0 = 0 := by
    ext a
    fin_cases a <;> rfl
  have hF' : linkFrame (asRead c) = linkFrame c := funext fun q => funext fun i => hF q i
  refine (C36_iff h hj hU e).2 ⟨fun (q : Fin c.n → ℝ) => ⟨?_, ?_, fun i hi => ?_⟩, hdl, hel⟩ s r o hr ho f hf
  · refine (congrArg (fun L : (Fin c.n → ℝ) → ℕ → Matrix (Fin 4) (Fin 4) ℝ =>
      quadratic fun v => kineticEnergy (asRead c).dyn c.n (fun i q => L q (i + 1)) q v) hF').trans ?_
    refine congrArg quadratic (funext fun v => ?_)
    simp only [kineticOf, kineticEnergy, hω, Matrix.zero_mul, hv, kinetic, mulVec_zero, dotProduct_zero, mul_zero, add_zero]
    refine Finset.sum_congr rfl fun i hi => ?_
    rw [show mass (asRead c).dyn i = mass c.dyn i from hm i (Finset.mem_range.1 hi), funext fun a => hd i (com (asRead c).dyn i) (com c.dyn i) _ 0 a]
  · funext (j : Fin c.n)
    have h1 : (fun x => potential (asRead c).dyn (fun k => c.g k) c.n fun i => linkFrame c (Function.update q j x) (i + 1)) =
        fun x => potentialOf c (Function.update q j x) +
          ∑ i ∈ Finset.range c.n, c.dyn (10 * i) * ((fun k : Fin 3 => c.g k) ⬝ᵥ (rot (linkFrame c 0 (i + 1)) *ᵥ (com c.dyn i - com (asRead c).dyn i))) := by
      funext x
      simp only [potentialOf, potential]
      rw [← sub_eq_iff_eq_add', sub_neg_eq_add, ← sub_eq_neg_add, ← Finset.sum_sub_distrib]
      refine Finset.sum_congr rfl fun i hi => ?_
      rw [mass, mass, hm i (Finset.mem_range.1 hi), ← mul_sub, ← dotProduct_sub, point, point, add_sub_add_left_eq_sub, ← mulVec_sub, rot_prismatic hp _ 0]
    refine (congrArg (fun L : (Fin c.n → ℝ) → ℕ → Matrix (Fin 4) (Fin 4) ℝ => deriv (fun x => potential (asRead c).dyn (fun k => c.g k) c.n
      fun i => L (Function.update q j x) (i + 1)) (q j)) hF').trans ?_
    rw [h1, deriv_add_const]
    rfl
  · ext a j
    simp only [jacobianAt, of_apply, hd i (com (asRead c).dyn i) (com c.dyn i)]

namespace Ex

theorem unit_of_symbolic {c : Conf} (h1 : ∀ i, c.fdh i = 1) (h2 : ∀ i, c.fw2l i = 1) (h3 : ∀ i, c.fee i = 1) : UnitNumeric c := by
  rintro a (⟨i, -, e, -⟩ | ⟨i, -, -, e, -⟩ | ⟨i, -, -, ⟨e, -⟩ | ⟨e, -⟩⟩)
  · rw [h1] at e
    cases e
  · rw [h1] at e
    cases e
  · rw [h2] at e
    cases e
  · rw [h3] at e
    cases e

/-- A prismatic joint with friction.  Of the inertial parameters only a coordinate of the centre of mass is symbolic: its symbol gets the mass from
`load_conf`. -/
def rail : Conf := { comOnly with
  types := ["P"]
  dlO := 2
  dl := fun i => i + 1
  fee := fun _ => 1
  fdyn := fun i => if i = 2 then 1 else 0
  fdl := fun i => if i = 0 then 1 else 0 }

/-- Although the parameters in use differ from those in the file, nothing that the class answers does. -/
example {name : String} (hnm : RobotName name) : (asRead rail).dyn 2 = 1 ∧ rail.dyn 2 = 3 ∧ ∃ g, robotFromFile name (some (fileOf rail)) true = .ok g ∧
    ∀ s : Spec.State rail, (∃ r o, Running (fileOf rail) rail s r ∧ LoadedAt (fileOf rail) rail s g o) ∧
      ∀ r o, Running (fileOf rail) rail s r → LoadedAt (fileOf rail) rail s g o → ∀ f ∈ library rail, ∃ mat, answers r f mat ∧ classAnswers g o f mat := by
  have h : Describes (fileOf rail) rail := describes_fileOf fun _ => ⟨rfl, rfl, rfl⟩
  have hj : JointsOk rail := ⟨by decide, by decide⟩
  obtain ⟨g, e, -⟩ := fromFile_ok h hj.1 (typed_of hj) hnm
  have n1 : rail.n = 1 := rfl
  refine ⟨?_, ?_, g, e, fun s => ⟨?_, fun r o hr ho f hf => ?_⟩⟩
  · show (((before rail.fdyn 2 : ℕ) : ℝ) + 1) = 1
    rw [show before rail.fdyn 2 = 0 by simp [before, rail, List.range, List.range.loop]]
    norm_num
  · show ((2 : ℕ) : ℝ) + 1 = 3
    norm_num
  · obtain ⟨r, hr⟩ := C56_reachable h hj (retuned_refl rail) s
    obtain ⟨o, ho⟩ := C36_reachable h hj e s
    exact ⟨r, o, hr, ho⟩
  · refine C36_prismatic h hj (unit_of_symbolic (fun _ => rfl) (fun _ => rfl) fun _ => rfl) e (fun i hi => ?_) (fun i hi => ?_)
      ⟨[2], by simp [rail, comOnly, Conf.n, List.range, List.range.loop]; norm_num⟩ (fun h => nomatch h) hr ho hf
    · obtain rfl : i = 0 := by omega
      simp [kindOf, rail]
    · obtain rfl : i = 0 := by omega
      rfl

/-- All angles symbolic; friction parameters out of order. -/
def astray : Conf := { mixed with fdh := fun _ => 1, fw2l := fun _ => 1, fee := fun _ => 1 }

/-- Here there are objects that answer otherwise. -/
example {name : String} (hnm : RobotName name) : ∃ g, robotFromFile name (some (fileOf astray)) true = .ok g ∧
    ∃ s r o, Running (fileOf astray) astray s r ∧ LoadedAt (fileOf astray) astray s g o ∧ ∃ f ∈ library astray, ¬ ∃ mat, answers r f mat ∧ classAnswers g o f mat := by
  have h : Describes (fileOf astray) astray := describes_fileOf (fun h => nomatch h)
  have hj : JointsOk astray := joints_mixed
  obtain ⟨g, e, -⟩ := fromFile_ok h hj.1 (typed_of hj) hnm
  refine ⟨g, e, ?_⟩
  by_contra hn
  have := (C36_iff h hj (unit_of_symbolic (fun _ => rfl) (fun _ => rfl) fun _ => rfl) e).1 fun s r o hr ho f hf => by
    by_contra hc
    exact hn ⟨s, r, o, hr, ho, f, hf, hc⟩
  obtain ⟨l, hl⟩ := this.2.1
  simp [astray, mixed, Conf.n, List.range, List.range.loop] at hl

/-- The symbolic parameters are taken from the front: of five entries of which the second and the fifth are symbolic, these become the first and the second. -/
example : (List.range 5).map (fromFront (fun i => if i = 1 ∨ i = 4 then 1 else 0) fun i => 10 * i) = [0, 0, 20, 30, 10] := by
  norm_num [fromFront, before, List.range, List.range.loop]

end Ex

end

end Thunder
