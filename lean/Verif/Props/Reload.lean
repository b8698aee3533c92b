import Verif.Props.AsRead

/-!
# Loading another file into an object of the generated class: C71
-/

open scoped Classical
open Matrix

namespace Thunder

noncomputable section

open Spec Robot

variable [Fl] {y₀ y : Yaml} {c₀ c : Conf}

/-- What a sequence of loads of the file `y` and of settings leaves behind. -/
theorem reload (h₀ : Describes y₀ c₀) (hj : JointsOk c₀) (h : Describes y c) (hf : SameForm c₀ c) {name : String} {g : Robot}
    (e : robotFromFile name (some y₀) true = .ok g) {steps : List Step} (hs : ∀ st ∈ steps, st.Fits c) (hl : ∃ u, .load u ∈ steps) :
    ∃ o, Wrap.runAll (Wrap.cfgOf g) (steps.map (Step.onClass y)) (Wrap.init (Wrap.cfgOf g)) = some o ∧
      (∀ f, o.vec (varMember f) = lastSet c f steps) ∧ Wrap.Loaded c o := by
  obtain ⟨g₀, e₀, hd₀⟩ := fromFile_ok h₀ hj.1 (typed_of hj) (robotName_of_ok h₀ e)
  obtain rfl : g₀ = g := by rw [e] at e₀; cases e₀; rfl
  have hjc := hf.joints hj
  obtain ⟨g', e', hd⟩ := fromFile_ok h hjc.1 (typed_of hjc) (robotName_of_ok h₀ e)
  rw [Wrap.cfgOf_fixed hd₀.toFixed, ← hf.cfg]
  obtain ⟨r1, o, -, -, g1, p1, l1⟩ := Wrap.Pair.steps h steps (Wrap.pair_init hd) hs
  refine ⟨o, g1, fun f => ?_, l1 (.inr hl)⟩
  have h1 := Wrap.Pair.vec h f steps (Wrap.pair_init hd) hs g1
  have h2 : f.field = varMember f := by cases f <;> rfl
  rw [← h2, h1]
  unfold lastSet
  congr 1
  show List.replicate ((Wrap.cfg c).size f.field) _ = _
  rw [Wrap.components_eq]
  cases f <;> rfl

/-- C71: into an object of the class generated from the file `y₀` a file `y` of the same form is loaded, in any order with settings of the variables.
The object then is one for the mechanism `over c₀ c`: numeric parameters remain those of `y₀`, whatever is in the file loaded. -/
theorem C71_over (h₀ : Describes y₀ c₀) (hj : JointsOk c₀) (h : Describes y c) (hf : SameForm c₀ c) {name : String} {g : Robot}
    (e : robotFromFile name (some y₀) true = .ok g) {steps : List Step} (hs : ∀ st ∈ steps, st.Fits c) (hl : ∃ u, .load u ∈ steps) :
    ∃ o, Wrap.runAll (Wrap.cfgOf g) (steps.map (Step.onClass y)) (Wrap.init (Wrap.cfgOf g)) = some o ∧
      (∀ f, o.vec (varMember f) = lastSet c f steps) ∧ ∀ s : Spec.State (over c₀ c), Moves (over c₀ c) s o → Generated y₀ (over c₀ c) s g o := by
  obtain ⟨o, h1, h2, h3⟩ := reload h₀ hj h hf e hs hl
  exact ⟨o, h1, h2, fun s hm => ⟨⟨c₀, h₀, hj, retuned_over c₀ c⟩, ⟨name, e⟩, h3.over hf hm⟩⟩

/-- C71 when the numeric parameters of the two files agree and the symbolic ones of links and actuators come first in the file loaded: the object is one
for the file loaded. -/
theorem C71_loaded (h₀ : Describes y₀ c₀) (hj : JointsOk c₀) (h : Describes y c) (hc : Retuned c₀ c) (ha : Aligned c) {name : String} {g : Robot}
    (e : robotFromFile name (some y₀) true = .ok g) {steps : List Step} (hs : ∀ st ∈ steps, st.Fits c) (hl : ∃ u, .load u ∈ steps) :
    ∃ o, Wrap.runAll (Wrap.cfgOf g) (steps.map (Step.onClass y)) (Wrap.init (Wrap.cfgOf g)) = some o ∧
      (∀ f, o.vec (varMember f) = lastSet c f steps) ∧ ∀ s : Spec.State c, Moves c s o → Generated y₀ c s g o := by
  obtain ⟨o, h1, h2, h3⟩ := reload h₀ hj h (.retuned hc) e hs hl
  exact ⟨o, h1, h2, fun s hm => ⟨⟨c₀, h₀, hj, hc⟩, ⟨name, e⟩, h3.stores ha hm⟩⟩

/-- C71: when nothing is symbolic, loading a file changes nothing that the getters answer. -/
theorem C71_numeric (h₀ : Describes y₀ c₀) (hj : JointsOk c₀) (h : Describes y c) (hf : SameForm c₀ c)
    (h0 : (∀ i, c₀.fdh i = 0) ∧ (∀ i, c₀.fw2l i = 0) ∧ (∀ i, c₀.fee i = 0) ∧ (∀ i, c₀.fg i = 0) ∧ (∀ i, c₀.fdyn i = 0) ∧ (∀ i, c₀.fdl i = 0) ∧
      (∀ i, c₀.fK i = 0) ∧ (∀ i, c₀.fD i = 0) ∧ (∀ i, c₀.fDm i = 0) ∧ ∀ i, c₀.fMm i = 0) {name : String} {g : Robot}
    (e : robotFromFile name (some y₀) true = .ok g) {steps : List Step} (hs : ∀ st ∈ steps, st.Fits c) (hl : ∃ u, .load u ∈ steps) :
    ∃ o, Wrap.runAll (Wrap.cfgOf g) (steps.map (Step.onClass y)) (Wrap.init (Wrap.cfgOf g)) = some o ∧
      (∀ f, o.vec (varMember f) = lastSet c f steps) ∧ ∀ s : Spec.State c₀, Moves c₀ s o → Generated y₀ c₀ s g o := by
  obtain ⟨o, h1, h2, h3⟩ := C71_over h₀ hj h hf e hs hl
  have ch : ∀ {f : ℕ → ℤ} {a b : ℕ → ℝ}, (∀ i, f i = 0) → choose f a b = a := fun h => funext fun i => if_pos (h i)
  have ho : over c₀ c = c₀ := by
    unfold over
    obtain ⟨a1, a2, a3, a4, a5, a6, a7, a8, a9, a10⟩ := h0
    rw [ch a1, ch a2, ch a3, ch a4, ch a5, ch a6, ch a7, ch a8, ch a9, ch a10]
  rw [ho] at h3
  exact ⟨o, h1, h2, h3⟩

/-- The gravity term of one vertical prismatic joint. -/
theorem gravity_lift {c : Conf} (ht : c.types = ["P"]) (hw : ∀ i, c.fw2l i ≠ 0) (hd : ∀ i, c.fdh i ≠ 0) (hw0 : ∀ i, c.w2l i = 0) (hd0 : ∀ i, c.dh i = 0)
    (q : Fin c.n → ℝ) (j : Fin c.n) : gravityOf c q j = -(c.dyn 0 * c.g 2) := by
  have n1 : c.n = 1 := by simp [Conf.n, ht]
  have hj : (j : ℕ) = 0 := by omega
  have hk : kindOf c 0 = .prismatic := by simp [kindOf, ht]
  have fr : ∀ x, linkFrame c (Function.update q j x) 1 = Spec.trans 0 0 x := by
    intro x
    have hx : Function.update q j x ⟨0, by omega⟩ = x := by
      rw [show (⟨0, by omega⟩ : Fin c.n) = j from Fin.ext hj.symm, Function.update_self]
    rw [linkFrame, linkFrame, dif_pos (by omega), hx, linkOf, hk, mountOf]
    have z0 : cs 0 = (1, 0) := by simp [cs]
    have one : ∀ M : Matrix (Fin 4) (Fin 4) ℝ, (∀ a b, M a b = if a = b then 1 else 0) → M = 1 := fun M h => by
      ext a b
      rw [h, one_apply]
    have rx : Spec.rotX (1, 0) = 1 := one _ fun a b => by fin_cases a <;> fin_cases b <;> simp [Spec.rotX]
    have ry : Spec.rotY (1, 0) = 1 := one _ fun a b => by fin_cases a <;> fin_cases b <;> simp [Spec.rotY]
    have rz : Spec.rotZ (1, 0) = 1 := one _ fun a b => by fin_cases a <;> fin_cases b <;> simp [Spec.rotZ]
    have t0 : Spec.trans 0 0 0 = 1 := one _ fun a b => by fin_cases a <;> fin_cases b <;> simp [Spec.trans]
    simp only [angleOf, if_neg (hw _), if_neg (hd _), hw0, hd0, frame, dh, z0, rx, ry, rz, t0, mul_one, one_mul, zero_add]
  have hp : (fun x => potentialOf c (Function.update q j x)) = fun x => -(c.dyn 0 * (c.g 0 * c.dyn 1 + c.g 1 * c.dyn 2 + c.g 2 * (x + c.dyn 3))) := by
    funext x
    have : ∀ k, k = 1 → (∑ i ∈ Finset.range k, mass c.dyn i * ((fun k : Fin 3 => c.g k) ⬝ᵥ point (linkFrame c (Function.update q j x) (i + 1)) (com c.dyn i))) =
        c.dyn 0 * (c.g 0 * c.dyn 1 + c.g 1 * c.dyn 2 + c.g 2 * (x + c.dyn 3)) := by
      rintro k rfl
      rw [Finset.sum_range_one, Nat.zero_add, fr]
      simp [mass, com, point, pos, rot, Spec.trans, dotProduct, Fin.sum_univ_three, mulVec]
    exact congrArg Neg.neg (this c.n n1)
  show deriv (fun x => potentialOf c (Function.update q j x)) (q j) = _
  rw [hp]
  have := ((((((hasDerivAt_id (q j)).add_const (c.dyn 3)).const_mul (c.g 2)).const_add (c.g 0 * c.dyn 1 + c.g 1 * c.dyn 2)).const_mul (c.dyn 0)).neg).deriv
  rw [mul_one] at this
  exact this

namespace Ex

/-- A lift: one vertical prismatic joint, mass and frames symbolic, gravity numeric. -/
def lift (a : ℝ) : Conf := { comOnly with
  types := ["P"]
  fee := fun _ => 1
  fdyn := fun i => if i = 0 then 1 else 0
  g := fun i => if i = 2 then a else 0 }

omit [Fl] in
theorem describes_lift (a : ℝ) : Describes (fileOf (lift a)) (lift a) := describes_fileOf fun _ => ⟨rfl, rfl, rfl⟩
omit [Fl] in
theorem joints_lift (a : ℝ) : JointsOk (lift a) := ⟨Nat.one_pos, by simp [lift, jointTypes]⟩
omit [Fl] in
theorem form_lift (a b : ℝ) : SameForm (lift a) (lift b) := ⟨rfl, rfl, rfl, rfl, rfl, rfl, rfl, rfl, rfl, rfl, rfl, rfl, rfl, rfl, rfl, rfl⟩

end Ex

/-- C71: without agreement of the numeric parameters the object does not answer for the file loaded.  The class is generated for a lift on the earth; into
an object of it the file of the same lift on the moon is loaded, and still the force on the earth is returned. -/
theorem C71_fails {name : String} (hnm : RobotName name) : ∃ (y₀ y : Yaml) (c₀ c : Conf), Describes y₀ c₀ ∧ JointsOk c₀ ∧ Describes y c ∧ SameForm c₀ c ∧ Aligned c ∧
    ∃ g, robotFromFile name (some y₀) true = .ok g ∧ ∃ o, Wrap.loadConf (Wrap.cfgOf g) (some y) true (Wrap.init (Wrap.cfgOf g)) = some o ∧
      Returns (classAnswers g o) "G" !![(9.81 : ℝ)] ∧ ∀ s r, Running y c s r → Returns (answers r) "G" !![(1.62 : ℝ)] := by
  have U : ∀ a, UnitNumeric (Ex.lift a) := fun a => Ex.unit_of_symbolic (fun _ => rfl) (fun _ => rfl) fun _ => rfl
  have G : ∀ (c : Conf), (∃ a, Retuned (Ex.lift a) c) → c.dyn 0 = 1 → (∀ i, c.w2l i = 0) → (∀ i, c.dh i = 0) → ∀ q, (Matrix.of fun (i : Fin c.n) (_ : Fin 1) => gravityOf c q i) =
      Matrix.of fun (_ : Fin c.n) (_ : Fin 1) => -c.g 2 := by
    rintro c ⟨a, hc⟩ h1 h2 h3 q
    ext i j
    rw [of_apply, of_apply, gravity_lift hc.types (fun i => by rw [hc.fw2l]; exact one_ne_zero) (fun i => by rw [hc.fdh]; exact one_ne_zero) h2 h3, h1, one_mul]
  obtain ⟨g, e, -⟩ := fromFile_ok (Ex.describes_lift (-9.81)) (Ex.joints_lift _).1 (typed_of (Ex.joints_lift _)) hnm
  refine ⟨_, _, _, _, Ex.describes_lift (-9.81), Ex.joints_lift _, Ex.describes_lift (-1.62), Ex.form_lift _ _, ?_, g, e, ?_⟩
  · exact ⟨⟨(List.range 9).map fun i => ((i + 1 : ℕ) : ℝ) + 1, by
      simp [Ex.lift, Ex.comOnly, Conf.n, List.range, List.range.loop]; norm_num⟩, ⟨[], rfl⟩, (fun h => nomatch h), (fun h => nomatch h), (fun h => nomatch h),
      (fun h => nomatch h)⟩
  obtain ⟨o, h1, h2, h3⟩ := C71_over (Ex.describes_lift (-9.81)) (Ex.joints_lift _) (Ex.describes_lift (-1.62)) (Ex.form_lift _ _) e (steps := [.load true])
    (by simp [Step.Fits]) ⟨true, List.mem_singleton_self _⟩
  have box : ∀ {R : String → Mat → Prop} {x v : ℝ}, x = v → Returns R "G" (Matrix.of fun (_ : Fin 1) (_ : Fin 1) => x) → Returns R "G" !![v] := by
    rintro R x _ rfl h
    convert h using 1
    ext i j
    fin_cases i
    fin_cases j
    rfl
  have hm : Moves (over (Ex.lift (-9.81)) (Ex.lift (-1.62))) ⟨0, 0, 0, 0, 0, 0, 0, 0, 0, 0⟩ o :=
    ⟨h2 .q, h2 .dq, h2 .ddq, h2 .d3q, h2 .dqr, h2 .ddqr, h2 .w, fun h => (nomatch h), fun h => (nomatch h), fun h => (nomatch h)⟩
  refine ⟨o, ?_, ?_, fun s r hr => ?_⟩
  · simp only [List.map_cons, List.map_nil, Wrap.runAll, Step.onClass, Wrap.Call.run] at h1
    cases hx : Wrap.loadConf (Wrap.cfgOf g) (some (Ex.fileOf (Ex.lift (-1.62)))) true (Wrap.init (Wrap.cfgOf g)) <;> rw [hx] at h1
    · cases h1
    · simpa [Wrap.runAll] using h1
  · have hG := (C58_matrices (.generated (h3 _ hm)) (U (-9.81))).2.2.2
    unfold ReturnsVec at hG
    rw [G _ ⟨_, retuned_over _ _⟩] at hG
    · refine box ?_ hG
      norm_num [over, choose, Ex.lift, Ex.comOnly]
    · norm_num [over, choose, fromFront, before, Ex.lift, Ex.comOnly]
    · exact fun i => by norm_num [over, choose, Ex.lift, Ex.comOnly]
    · exact fun i => by norm_num [over, choose, Ex.lift, Ex.comOnly]
  · have hG := (C58_matrices (.robot hr) (U (-1.62))).2.2.2
    unfold ReturnsVec at hG
    rw [G _ ⟨_, retuned_refl _⟩] at hG
    · refine box ?_ hG
      show -(if (2 : ℕ) = 2 then (-1.62 : ℝ) else 0) = 1.62
      norm_num
    · show ((0 : ℕ) : ℝ) + 1 = 1
      norm_num
    · exact fun _ => rfl
    · exact fun _ => rfl

namespace Ex

/-- The lift with another mass. -/
def loaded : Conf := { lift (-9.81) with dyn := fun i => if i = 0 then 70 else i + 1 }

omit [Fl] in
/-- Files to which `C71_loaded` applies: the mass is read from the second one. -/
example : Describes (fileOf (lift (-9.81))) (lift (-9.81)) ∧ JointsOk (lift (-9.81)) ∧ Describes (fileOf loaded) loaded ∧ Retuned (lift (-9.81)) loaded ∧
    Aligned loaded ∧ loaded.dyn 0 ≠ (lift (-9.81)).dyn 0 := by
  refine ⟨describes_lift _, joints_lift _, describes_fileOf fun _ => ⟨rfl, rfl, rfl⟩,
    ⟨rfl, rfl, rfl, rfl, rfl, rfl, rfl, rfl, rfl, rfl, rfl, rfl, rfl, rfl, rfl, rfl, fun _ _ => rfl, fun _ _ => rfl, fun _ _ => rfl, fun _ _ => rfl, fun i h => ?_,
      fun _ _ => rfl, fun _ _ => rfl, fun _ _ => rfl, fun _ _ => rfl, fun _ _ => rfl⟩,
    ⟨⟨(List.range 9).map fun i => ((i + 1 : ℕ) : ℝ) + 1, ?_⟩, ⟨[], rfl⟩, (fun h => nomatch h), (fun h => nomatch h), (fun h => nomatch h), (fun h => nomatch h)⟩, ?_⟩
  · have hi : i ≠ 0 := fun e => by
      subst e
      exact absurd h (by decide)
    simp [loaded, lift, comOnly, hi]
  · simp [loaded, lift, comOnly, Conf.n, List.range, List.range.loop]
    norm_num
  · norm_num [loaded, lift, comOnly]

/-- The lift with nothing symbolic. -/
def sealed (m : ℝ) : Conf := { lift (-9.81) with fdh := fun _ => 0, fw2l := fun _ => 0, fee := fun _ => 0, fdyn := fun _ => 0, dyn := fun i => if i = 0 then m else i + 1 }

omit [Fl] in
/-- Files to which `C71_numeric` applies: the mass in the second one has no effect. -/
example : Describes (fileOf (sealed 1)) (sealed 1) ∧ JointsOk (sealed 1) ∧ Describes (fileOf (sealed 70)) (sealed 70) ∧ SameForm (sealed 1) (sealed 70) ∧
    (sealed 1).dyn 0 ≠ (sealed 70).dyn 0 ∧ (∀ i, (sealed 1).fdyn i = 0) ∧ ∀ i, (sealed 1).fdl i = 0 :=
  ⟨describes_fileOf fun _ => ⟨rfl, rfl, rfl⟩, ⟨Nat.one_pos, by simp [sealed, lift, jointTypes]⟩, describes_fileOf fun _ => ⟨rfl, rfl, rfl⟩,
    ⟨rfl, rfl, rfl, rfl, rfl, rfl, rfl, rfl, rfl, rfl, rfl, rfl, rfl, rfl, rfl, rfl⟩, by norm_num [sealed], fun _ => rfl, fun _ => rfl⟩

end Ex

end

end Thunder
