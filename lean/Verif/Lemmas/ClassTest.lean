import Verif.Spec.ClassTest
import Verif.Model.ClassTest
import Verif.Lemmas.TestMain
import Verif.Lemmas.AsRead
import Verif.Lemmas.WrapperInv
import Verif.Props.Reload

/-!
# The program `thunder_robot_test`
-/

open scoped Classical
open Matrix

namespace Thunder

noncomputable section

open Spec Robot

theorem col_eq {n : ℕ} (A : Matrix (Fin n) (Fin 1) ℝ) : A = Matrix.of fun i (_ : Fin 1) => A i 0 := by
  ext i j
  rw [Subsingleton.elim j 0]
  rfl

namespace ClassTest

theorem hasGetter_of {g : Robot} {o : Wrap.Obj} {f : String} {m : Mat} (h : Wrap.getter g f o = .value m) : hasGetter g f = true := by
  unfold Wrap.getter at h
  unfold hasGetter
  split at h
  · next h1 h2 => rw [h1, h2]; rfl
  · cases h

theorem torque_is {n : ℕ} {M C G : Mat} {A B : Matrix (Fin n) (Fin n) ℝ} {g : Fin n → ℝ} (hM : Test.Is M A) (hC : Test.Is C B)
    (hG : Test.Is G (Matrix.of fun i (_ : Fin 1) => g i)) {u v : List Num} {u' v' : Fin n → ℝ}
    (hu : Test.Is (.col u) (Matrix.of fun i (_ : Fin 1) => u' i)) (hv : Test.Is (.col v) (Matrix.of fun i (_ : Fin 1) => v' i)) :
    ∃ e, torque M C G u v = some e ∧ Test.Is e (Matrix.of fun i (_ : Fin 1) => (A *ᵥ u' + B *ᵥ v' + g) i) := by
  obtain ⟨p1, e1, h1⟩ := Test.mul_is hM hu
  obtain ⟨p2, e2, h2⟩ := Test.mul_is hC hv
  obtain ⟨p3, e3, h3⟩ := Test.zip_is h1 h2 (op := Num.add) (f := (· + ·)) fun _ _ => rfl
  obtain ⟨p4, e4, h4⟩ := Test.zip_is h3 hG (op := Num.add) (f := (· + ·)) fun _ _ => rfl
  refine ⟨p4, ?_, ?_⟩
  · unfold torque
    simp only [Option.bind_eq_bind, e1, e2, e3, e4, Option.bind_some]
  · convert h4 using 1
    ext i j
    simp [Matrix.mul_apply, Matrix.mulVec, dotProduct]

theorem nums_is (k : ℕ) (p : ℕ → ℝ) : Test.Is (.col (nums k p)) (Matrix.of fun (i : Fin k) (_ : Fin 1) => p i) :=
  Test.col_is (by simp [nums]) fun i => by simp [nums]

/-- What is printed, from the answers of the getters. -/
theorem body_ok {g : Robot} {o : Wrap.Obj} {n : ℕ} (hn : (Wrap.cfgOf g).n = n) {K : Matrix (Fin 4) (Fin 4) ℝ} {J : Matrix (Fin 6) (Fin n) ℝ}
    {M C : Matrix (Fin n) (Fin n) ℝ} {G : Fin n → ℝ} {Y : Matrix (Fin n) (Fin (10 * n)) ℝ} (hK : Returns (classAnswers g o) "T_0_ee" K)
    (hJ : Returns (classAnswers g o) "J_ee" J) (hM : Returns (classAnswers g o) "M" M) (hC : Returns (classAnswers g o) "C" C)
    (hG : ReturnsVec (classAnswers g o) "G" G) (hY : Returns (classAnswers g o) "Yr" Y) {p : ℕ → ℝ} (hp : o.vec .REG = nums (10 * n) p) :
    used.all (hasGetter g) = true ∧ ∃ out, body g o = some out ∧ out.map Prod.fst = classHeadings ∧ shows out "par_DYN" (printRow (o.vec .DYN)) ∧
      shows out "par_REG" (printRow (nums (10 * n) p)) ∧ shows out "par_Dl" (printRow (o.vec .Dl)) ∧ shows out "world2L0" (printCol (o.vec .W2L)) ∧
      shows out "par_Ln2EE" (printCol (o.vec .EE)) ∧ Returns (shows out) "Kin" K ∧ Returns (shows out) "Jac" J ∧ Returns (shows out) "M" M ∧
      Returns (shows out) "C" C ∧ ReturnsVec (shows out) "G" G ∧ Returns (shows out) "Yr" Y ∧ ReturnsVec (shows out) "tau_cmd_dyn" G ∧
      ReturnsVec (shows out) "tau_cmd_reg" (Y *ᵥ fun k => p k) ∧ ReturnsVec (shows out) "diff tau_cmd" fun i => G i - (Y *ᵥ fun k => p k) i := by
  obtain ⟨mK, eK, iK⟩ := hK
  obtain ⟨mJ, eJ, iJ⟩ := hJ
  obtain ⟨mM, eM, iM⟩ := hM
  obtain ⟨mC, eC, iC⟩ := hC
  obtain ⟨mG, eG, iG⟩ := hG
  obtain ⟨mY, eY, iY⟩ := hY
  obtain ⟨mD, eD, iD⟩ := torque_is (M := mM) (C := mC) (G := mG) iM iC iG (zero_is n) (zero_is n)
  obtain ⟨mR, eR, iR⟩ := Test.mul_is (m := mY) iY (nums_is (10 * n) p)
  obtain ⟨mE, eE, iE⟩ := Test.zip_is iD iR (op := Num.sub) (f := (· - ·)) fun _ _ => rfl
  have e0 : (fun _ : Fin n => (0 : ℝ)) = 0 := rfl
  rw [e0, mulVec_zero, mulVec_zero, zero_add, zero_add] at iD
  have hR : (Y * Matrix.of fun (i : Fin (10 * n)) (_ : Fin 1) => p i) = Matrix.of fun i (_ : Fin 1) => (Y *ᵥ fun k : Fin (10 * n) => p k) i := by
    ext i j
    simp [Matrix.mul_apply, Matrix.mulVec, dotProduct]
  rw [hR] at iR
  unfold classAnswers at eK eJ eM eC eG eY
  refine ⟨?_, _, by
    unfold body
    simp only [eK, eJ, eM, eC, eG, eY, hn, hp, value, Option.bind_eq_bind, Option.bind_some, eD, eR, eE]
    rfl, rfl, ?_⟩
  · simp only [used, List.all_cons, List.all_nil, hasGetter_of eK, hasGetter_of eJ, hasGetter_of eM, hasGetter_of eC, hasGetter_of eG, hasGetter_of eY, Bool.and_true]
  simp only [Test.tr_col]
  refine ⟨by simp [shows], by simp [shows], by simp [shows], by simp [shows, Mat.col, printCol], by simp [shows, Mat.col, printCol], ⟨mK, by simp [shows], iK⟩,
    ⟨mJ, by simp [shows], iJ⟩, ⟨mM, by simp [shows], iM⟩, ⟨mC, by simp [shows], iC⟩, ⟨mG, by simp [shows], iG⟩, ⟨mY, by simp [shows], iY⟩,
    ⟨mD, by simp [shows], iD⟩, ⟨mR, by simp [shows], iR⟩, ⟨mE, by simp [shows], ?_⟩⟩
  have hE : (Matrix.of fun i (_ : Fin 1) => G i - (Y *ᵥ fun k : Fin (10 * n) => p k) i) =
      Matrix.of fun i j => (Matrix.of fun i (_ : Fin 1) => (((M *ᵥ fun _ => (0 : ℝ)) + C *ᵥ fun _ => (0 : ℝ)) + G) i) i j - (Y * Matrix.of fun (i : Fin (10 * n)) (_ : Fin 1) => p i) i j := by
    ext i j
    rw [hR, e0, mulVec_zero, mulVec_zero, zero_add, zero_add]
    rfl
  show Test.Is mE (Matrix.of fun i (_ : Fin 1) => G i - (Y *ᵥ fun k : Fin (10 * n) => p k) i)
  rw [hE]
  exact iE

/-- The object before the getters are called. -/
def ready (n : ℕ) (o : Wrap.Obj) : Wrap.Obj :=
  (((o.set .q (List.replicate n (some 1))).set .dq (List.replicate n (some 0))).set .dqr (List.replicate n (some 0))).set .ddqr (List.replicate n (some 0))

theorem prepare_ok {c : Wrap.Cfg} {file : Option Yaml} {o : Wrap.Obj} (h : Wrap.loadConf c file true (Wrap.init c) = some o) :
    prepare c file = some (ready c.n o) := by
  unfold prepare
  rw [h, Option.bind_some]
  unfold Wrap.setArguments
  rw [if_pos (by simp)]
  rfl

theorem ready_other {n : ℕ} {o : Wrap.Obj} {f : Wrap.Field} (h : f ∉ [Wrap.Field.q, .dq, .dqr, .ddqr]) : (ready n o).vec f = o.vec f := by
  simp only [List.mem_cons, List.not_mem_nil, or_false, not_or] at h
  unfold ready
  rw [Wrap.set_vec_ne _ _ h.2.2.2, Wrap.set_vec_ne _ _ h.2.2.1, Wrap.set_vec_ne _ _ h.2.1, Wrap.set_vec_ne _ _ h.1]

end ClassTest

/-! ## The parameters of the regressor after a file has been loaded -/

theorem nums_eq_vecN (k : ℕ) (p : ℕ → ℝ) : nums k p = vecN k p := rfl

theorem regOfDyn_nums (n : ℕ) (p : ℕ → ℝ) : regOfDynW n (nums (10 * n) p) = nums (10 * n) (reg p) := by
  rw [nums_eq_vecN, regOfDynW_eq, regOfDyn_vecN]
  rfl

theorem conf_safe {y : Yaml} {c : Conf} (h : Describes y c) (o : Wrap.Obj) (u : Bool) : Wrap.Call.Safe (Wrap.cfg c) o (.loadConf (some y) u) := by
  rintro _ dyn hy hdyn _
  cases hy
  obtain ⟨l, hl, hlen, hi⟩ := h.links
  rw [getM_child hl] at hdyn
  cases hdyn
  have key : ∀ i, ∃ b : Option (List Num), i < c.n → (∀ e, l[i]? = some e →
      Wrap.readDynLink e = some ((List.range 10).map fun j => some (c.dyn (10 * i + j)), b)) ∧
      ((b = none ∧ c.dlO = 0) ∨ ∃ xs, b = some xs ∧ c.dlO ≤ xs.length ∧ xs.take c.dlO = (List.range c.dlO).map fun j => some (c.dl (c.dlO * i + j))) := by
    intro i
    by_cases hlt : i < c.n
    · obtain ⟨key, nd, e, hc⟩ := hi i hlt
      obtain ⟨b, h1, h2⟩ := Wrap.readDynLink_ok (key := key) hc
      exact ⟨b, fun _ => ⟨fun e' he' => by rw [e] at he'; cases he'; exact h1, h2⟩⟩
    · exact ⟨none, fun h => absurd h hlt⟩
  choose b hb using key
  have hm : l.mapM Wrap.readDynLink = some ((List.range c.n).map fun i => ((List.range 10).map fun j => some (c.dyn (10 * i + j)), b i)) := by
    rw [Wrap.mapM_range l (g := fun i => ((List.range 10).map fun j => some (c.dyn (10 * i + j)), b i)), hlen]
    intro i hil
    exact (hb i (by omega)).1 _ (List.getElem?_eq_getElem hil)
  refine ⟨_, by rw [show (Yaml.map l).items = l from rfl, List.take_of_length_le (by simp only [Wrap.cfg]; omega)]; exact hm, fun e he dl hdl => ?_⟩
  obtain ⟨i, hi', rfl⟩ := List.mem_map.1 he
  rcases (hb i (List.mem_range.1 hi')).2 with ⟨h, _⟩ | ⟨xs, h, h2, _⟩
  · rw [show b i = some dl from hdl] at h; cases h
  · rw [show b i = some dl from hdl] at h; cases h; exact h2

/-- The object of the program after a file of the form `c` has been loaded. -/
theorem class_loaded {y : Yaml} {c : Conf} (h : Describes y c) : ∃ o, ClassTest.prepare (Wrap.cfg c) (some y) = some o ∧ Wrap.Loaded c o ∧
    o.vec .REG = nums (10 * c.n) (reg c.dyn) ∧ Moves c (testState c) o := by
  obtain ⟨o₁, e₁, -, -, hl, hv⟩ := Wrap.loadConf_ok h true (Wrap.sized_init (Wrap.cfg c)) (Wrap.symbs_init c)
  have hr := (Wrap.inv_run (k := .loadConf (some y) true) (Wrap.inv_init (Wrap.cfg c)) rfl (conf_safe h _ true) e₁).2
  rw [hl.dyn] at hr
  have hr : o₁.vec .REG = nums (10 * c.n) (reg c.dyn) := hr.trans (regOfDyn_nums c.n c.dyn)
  have rest : ∀ f : Wrap.Field, f ∉ [Wrap.Field.q, .dq, .dqr, .ddqr] → (ClassTest.ready c.n o₁).vec f = o₁.vec f := fun f hf => ClassTest.ready_other hf
  have st : ∀ {k : ℕ} {x : ℝ}, List.replicate k (some x) = stored fun _ : Fin k => x := by
    intro k x
    unfold stored
    rw [List.ofFn_const]
  refine ⟨_, ClassTest.prepare_ok e₁, ?_, ?_, ?_⟩
  · refine ⟨?_, ?_, ?_, ?_, ?_, ?_, fun he => ?_, fun he => ?_, fun he => ?_, fun he => ?_⟩
    · exact (rest .DH (by decide)).trans hl.dh
    · exact (rest .W2L (by decide)).trans hl.w2l
    · exact (rest .EE (by decide)).trans hl.ee
    · exact hl.grav.imp (fun h => (rest .G (by decide)).trans h) id
    · exact (rest .DYN (by decide)).trans hl.dyn
    · exact (rest .Dl (by decide)).trans hl.dl
    · exact (rest .K (by decide)).trans (hl.K he)
    · exact (rest .D (by decide)).trans (hl.D he)
    · exact (rest .Dm (by decide)).trans (hl.Dm he)
    · exact (rest .Mm (by decide)).trans (hl.Mm he)
  · exact (rest .REG (by decide)).trans hr
  · have z : ∀ k : Key, k.isVar = true → k.field ∉ [Wrap.Field.q, .dq, .dqr, .ddqr] → (ClassTest.ready c.n o₁).vec k.field = stored fun _ : Fin ((Wrap.cfg c).size k.field) => (0 : ℝ) :=
      fun k hk h0 => (rest _ h0).trans ((hv k hk).trans st)
    exact ⟨st, st, z .ddq rfl (by decide), z .d3q rfl (by decide), st, st, z .w rfl (by decide), fun _ => z .x rfl (by decide), fun _ => z .dx rfl (by decide),
      fun _ => z .ddx rfl (by decide)⟩

/-- The object of the program when there is no file. -/
theorem class_new (c : Conf) : ∃ o, ClassTest.prepare (Wrap.cfg c) none = some o ∧ (∀ f, f ∉ [Wrap.Field.q, .dq, .dqr, .ddqr] → o.vec f = (Wrap.init (Wrap.cfg c)).vec f) ∧
    Stores (cleared c) (testState (cleared c)) o := by
  have st : ∀ {k : ℕ} {x : ℝ}, List.replicate k (some x) = stored fun _ : Fin k => x := by
    intro k x
    unfold stored
    rw [List.ofFn_const]
  have rest : ∀ f : Wrap.Field, f ∉ [Wrap.Field.q, .dq, .dqr, .ddqr] → (ClassTest.ready c.n (Wrap.init (Wrap.cfg c))).vec f = (Wrap.init (Wrap.cfg c)).vec f :=
    fun f hf => ClassTest.ready_other hf
  have par : ∀ {k m : ℕ} {f : ℕ → ℤ} {v : ℕ → ℝ} {l : List Num}, l = List.replicate m (some 0) → k = m → symbolics k f (fun i => if f i = 0 then v i else 0) <+: l := by
    rintro k _ f v _ rfl rfl
    have : symbolics k f (fun i => if f i = 0 then v i else 0) = List.replicate ((List.range k).filter fun i => f i ≠ 0).length (some 0) := by
      unfold symbolics
      refine List.eq_replicate_iff.2 ⟨by simp, fun b hb => ?_⟩
      obtain ⟨i, hi, rfl⟩ := List.mem_map.1 hb
      exact congrArg some (if_neg (by simpa using (List.mem_filter.1 hi).2))
    rw [this]
    have hle := (List.length_filter_le (fun i => decide (f i ≠ 0)) (List.range k)).trans (by simp : (List.range k).length ≤ k)
    obtain ⟨d, hd⟩ := Nat.exists_eq_add_of_le hle
    rw [show List.replicate k (some (0 : ℝ)) = List.replicate (((List.range k).filter fun i => f i ≠ 0).length + d) (some 0) from congrArg (List.replicate · _) hd,
      List.replicate_add]
    exact List.prefix_append _ _
  refine ⟨_, ClassTest.prepare_ok rfl, rest, ⟨⟨st, st, (rest .ddq (by decide)).trans st, (rest .d3q (by decide)).trans st, st, st, (rest .w (by decide)).trans st,
    fun _ => (rest .x (by decide)).trans st, fun _ => (rest .dx (by decide)).trans st, fun _ => (rest .ddx (by decide)).trans st⟩, ?_, ?_, ?_, ?_, ?_, fun _ => ?_, fun _ => ?_,
    fun _ => ?_, fun _ => ?_, fun _ => ?_⟩⟩
  · exact par (rest .DH (by decide)) (Nat.mul_comm _ _)
  · exact par (rest .W2L (by decide)) rfl
  · exact par (rest .EE (by decide)) rfl
  · exact par (rest .G (by decide)) rfl
  · exact par (rest .DYN (by decide)) rfl
  · exact par (rest .Dl (by decide)) (Nat.mul_comm _ _)
  · exact par (rest .K (by decide)) (Nat.mul_comm _ _)
  · exact par (rest .D (by decide)) (Nat.mul_comm _ _)
  · exact par (rest .Dm (by decide)) (Nat.mul_comm _ _)
  · exact par (rest .Mm (by decide)) rfl

/-- Which angles are numeric, and their values, is not changed by new values of the symbolic parameters. -/
theorem unit_retuned [Fl] {c₀ c : Conf} (h : Retuned c₀ c) (hU : UnitNumeric c₀) : UnitNumeric c := by
  intro a ha
  have hn : c.n = c₀.n := (Spec.SameForm.retuned h).n
  have hk : ∀ i, kindOf c i = kindOf c₀ i := fun i => by unfold kindOf; rw [h.types]
  refine hU a ?_
  rcases ha with ⟨i, hi, e, rfl⟩ | ⟨i, hi, k, e, rfl⟩ | ⟨i, h3, h6, ⟨e, rfl⟩ | ⟨e, rfl⟩⟩
  · rw [h.fdh] at e
    exact .inl ⟨i, hn ▸ hi, e, h.dh _ e⟩
  · rw [h.fdh] at e
    exact .inr (.inl ⟨i, hn ▸ hi, hk i ▸ k, e, h.dh _ e⟩)
  · rw [h.fw2l] at e
    exact .inr (.inr ⟨i, h3, h6, .inl ⟨e, h.w2l _ e⟩⟩)
  · rw [h.fee] at e
    exact .inr (.inr ⟨i, h3, h6, .inr ⟨e, h.ee _ e⟩⟩)

section

variable [Fl] {y₀ : Yaml} {c : Conf} {g : Robot} {o : Wrap.Obj}

/-- The run, from the object before the getters are called. -/
theorem class_run {file : Option Yaml} (hg : Generated y₀ c (testState c) g o) (e : ClassTest.prepare (Wrap.cfgOf g) file = some o) {p : ℕ → ℝ}
    (hp : o.vec .REG = nums (10 * c.n) (reg p)) (hD : o.vec .DYN = nums (10 * c.n) p) :
    ∃ out, ClassTest.main g file = .printed out ∧ out.map Prod.fst = classHeadings ∧ shows out "par_DYN" (printRow (nums (10 * c.n) p)) ∧
      shows out "par_REG" (printRow (nums (10 * c.n) (reg p))) ∧ shows out "par_Dl" (printRow (o.vec .Dl)) ∧ shows out "world2L0" (printCol (o.vec .W2L)) ∧
      shows out "par_Ln2EE" (printCol (o.vec .EE)) ∧ (UnitNumeric c → ClassPrints c p out) := by
  have hS : Source y₀ c (testState c) (classAnswers g o) := .generated hg
  have hn : (Wrap.cfgOf g).n = c.n := by
    obtain ⟨c₀, h₀, hj, hc⟩ := hg.file
    obtain ⟨name, eg⟩ := hg.gen
    obtain ⟨g', e', hd⟩ := fromFile_ok h₀ hj.1 (typed_of hj) (robotName_of_ok h₀ eg)
    obtain rfl : g' = g := by rw [eg] at e'; cases e'; rfl
    rw [Wrap.cfgOf_fixed hd.toFixed]
    exact (Spec.SameForm.retuned hc).n.symm
  have run : ∀ {out}, ClassTest.used.all (ClassTest.hasGetter g) = true → ClassTest.body g o = some out → ClassTest.main g file = .printed out := by
    intro out h1 h2
    unfold ClassTest.main
    rw [if_pos h1, e, Option.bind_some, h2]
  by_cases hU : UnitNumeric c
  · have hm := C58_matrices hS hU
    obtain ⟨Y, _, _, _, hY, -, -, -, -, hq⟩ := C59_inertial hS hU
    have cz : coriolisOf c (testState c).q (testState c).dq = 0 := by
      ext i j
      simp [coriolisOf, testState, christoffel]
    obtain ⟨h1, out, h2, a1, a2, a3, a4, a5, a6, a7, a8, a9, a10, a11, a12, a13, a14, a15⟩ := ClassTest.body_ok hn (C56_frames hS).2.2.2.2 (C57_jacobians hS hU).2.2 hm.1
      (cz ▸ hm.2.1) hm.2.2.2 hY hp
    have hYp : ∀ p : ℕ → ℝ, Y *ᵥ (fun k => reg p k) = gravityOf (withDyn c p) fun _ => 1 := fun p => (hq p).2.2.2.trans (by
      have : ∀ (A B : Matrix (Fin c.n) (Fin c.n) ℝ) (v : Fin c.n → ℝ), A *ᵥ (0 : Fin c.n → ℝ) + B *ᵥ (0 : Fin c.n → ℝ) + v = v := fun A B v => by
        rw [mulVec_zero, mulVec_zero, zero_add, zero_add]
      exact this _ _ _)
    rw [hYp] at a14 a15
    rw [hD] at a2
    exact ⟨out, run h1 h2, a1, a2, a3, a4, a5, a6, fun _ => ⟨a1, a2, a3, a7, a8, a9, a10, a11, ⟨Y, a12, hYp⟩, a13, a14, a15⟩⟩
  · obtain ⟨h1, out, h2, a1, a2, a3, a4, a5, a6, -⟩ := ClassTest.body_ok hn (C56_frames hS).2.2.2.2 (hS.gives .Jee trivial (by decide) rfl rfl rfl)
      (hS.gives .M trivial (by decide) rfl rfl rfl) (hS.gives .C trivial (by decide) rfl rfl rfl) (hS.gives .G trivial (by decide) rfl rfl (col_eq _))
      (hS.gives .Yr trivial (by decide) rfl rfl rfl) hp
    rw [hD] at a2
    exact ⟨out, run h1 h2, a1, a2, a3, a4, a5, a6, fun h => absurd h hU⟩

end

end

end Thunder
