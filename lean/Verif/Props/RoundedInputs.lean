import Verif.Lemmas.Tune
import Verif.Lemmas.RoundingInput
import Verif.Lemmas.RoundingPar
import Verif.Lemmas.RobotFile
import Verif.Props.Rounding
import Verif.Props.Tune

/-!
# Inputs with errors and computed parameters: C81
-/

open scoped Classical
open Matrix

namespace Thunder

noncomputable section

open Spec Robot SX

section

variable [Fl] {y : Yaml}

/-- C81: the robot or object holds values that differ from the true ones by at most `δ` (measured positions and velocities, parameters that are known
approximately), and computes with operations as in C76.  For every function of the library the error of the answer is at most a
constant times `u + δ`. -/
theorem C81_inputs {c₀ : Conf} (hj : JointsOk c₀) {f : String} (hf : f ∈ library c₀) (b : ℝ) :
    ∃ K u₀, 0 ≤ K ∧ 0 < u₀ ∧ ∀ (c c' : Conf) (s : State c) (s' : State c'), Retuned c₀ c → Retuned c₀ c' → Within b c s → ∀ δ, 0 ≤ δ → Measured δ c c' s s' →
      ∀ u, 0 ≤ u → u + δ ≤ u₀ → ∀ (m : Machine u) (R₀ R R' : String → Mat → Prop), Source y c s R₀ → OnMachine m y c' s' R R' →
        ∀ {k l : ℕ} {A : Matrix (Fin k) (Fin l) ℝ}, Returns R₀ f A → ReturnsNear (K * (u + δ)) R' f A := by
  obtain ⟨F, hF, rfl⟩ := Fn.mem_library.1 hf
  obtain ⟨S, hS⟩ := Fn.tame (c := c₀) (f := F) hj.1 (typed_of hj)
  obtain ⟨K, u₀, hK, hu, H⟩ := tame_inputs (le_max_right b 0) (F.expr (base c₀) c₀).elements fun e he => by
    obtain ⟨i, -, j, -, rfl⟩ := mem_elements he
    exact hS i j
  refine ⟨K, u₀, hK, hu, fun c c' s s' hc hc' hb δ hδ hd u h0 h1 m R₀ R R' h hm k l A hA => ?_⟩
  have hv : F.Valid c := (hc.valid F).symm ▸ hF
  have hv' : F.Valid c' := (hc'.valid F).symm ▸ hF
  have he : F.expr (base c') c' = F.expr (base c) c := (hc'.expr F).trans (hc.expr F).symm
  have hn : c'.n = c.n := by rw [show c'.n = c₀.n from congrArg List.length hc'.types, show c.n = c₀.n from congrArg List.length hc.types]
  have hne : c'.ne = c.ne := by
    unfold Conf.ne
    rw [hc'.types, hc.types]
  obtain ⟨-, ρ', hρ', -, ha⟩ := onMachine_keys hm hv'
  obtain ⟨R₁, hR₁⟩ : ∃ R₁, OnMachine m y c s R₀ R₁ := by
    cases h with
    | robot h => exact ⟨_, .robot h⟩
    | generated h => exact ⟨_, .generated h⟩
  obtain ⟨-, ρ, hρ, hkeys, -⟩ := onMachine_keys hR₁ hv
  have hself := Fn.rel_self h.pos h.typed hv
  have hG : Returns R₀ F.name (SX.val (env c s) (F.expr (base c) c) (F.rows c) (F.cols c)) := h.gives F hv rfl rfl rfl rfl
  obtain ⟨m₁, a₁, b₁, c₁, d₁, e₁⟩ := hA
  obtain ⟨m₂, a₂, b₂, c₂, d₂, e₂⟩ := hG
  have hmm : m₁ = m₂ := by
    cases h with
    | robot h => exact answers_unique _ _ a₁ a₂
    | generated h => exact classAnswers_unique _ _ a₁ a₂
  subst hmm
  obtain rfl : F.rows c = k := b₂.symm.trans b₁
  obtain rfl : F.cols c = l := c₂.symm.trans c₁
  rw [he] at ha hρ'
  refine ⟨_, ha, hself.rows, hself.cols, ?_, fun i j => ?_⟩
  · rw [List.length_map, length_elements, hself.rows, hself.cols]
  · have hi : (i : ℕ) < (F.expr (base c) c).rows := hself.rows.symm ▸ i.2
    have hj : (j : ℕ) < (F.expr (base c) c).cols := hself.cols.symm ▸ j.2
    have hA : A i j = Expr.eval (env c s) ((F.expr (base c) c).e i j) := Option.some.inj (Option.some.inj ((e₁ i j).symm.trans (e₂ i j)))
    refine ⟨m.ev ρ' ((F.expr (base c) c).e i j), ?_, ?_⟩
    · have := getElem?_elements hi hj
      rw [hself.rows] at this
      rw [List.getElem?_map, this]
      rfl
    · rw [hA]
      have hmem := getElem?_elements hi hj
      rw [hc.expr F] at hmem
      refine H _ (by rw [hc.expr F]; exact List.mem_of_getElem? hmem) (env c s) ρ' (fun v hv => ?_) u δ h0 hδ h1 (fun v hv => ?_) _ (m.rounds ρ' _)
      · obtain ⟨k, k1, k2, k3, k4⟩ := hkeys i j v hv
        exact (hb.env k1 k2 k3 k4).trans (le_max_left _ _)
      · obtain ⟨k, k1, k2, k3, k4⟩ := hkeys i j v hv
        rw [hρ' i j v hv]
        exact hd.env hn hne k1 k2 k3 k4

end

/-! ## The conversion of the inertial parameters -/

/-- C81: the linear parameters computed by `update_inertial_REG` of the robot and of the class. -/
theorem C81_reg (b : ℝ) : ∃ K u₀, 0 ≤ K ∧ 0 < u₀ ∧ ∀ (n : ℕ) (d : ℕ → ℝ), (∀ k < 10 * n, |d k| ≤ b) → ∀ u, 0 ≤ u → u ≤ u₀ → ∀ m : Machine u,
    ∃ r r', regOfDynOn m n (vecN (10 * n) d) = vecN (10 * n) r ∧ regOfDynWOn m n (vecN (10 * n) d) = vecN (10 * n) r' ∧
      ∀ k < 10 * n, |r k - reg d k| ≤ K * u ∧ |r' k - reg d k| ≤ K * u := by
  obtain ⟨K, u₀, hK, hu, H⟩ := reg_error b
  refine ⟨K, u₀, hK, hu, fun n d hd u h0 h1 m => ⟨_, _, regOn_vecN m steinerGenE n d, regOn_vecN m steinerWrapE n d, fun k hk => ?_⟩⟩
  obtain ⟨i, l, hl, rfl⟩ : ∃ i l, l < 10 ∧ k = 10 * i + l := ⟨k / 10, k % 10, by omega, by omega⟩
  have hi : i < n := by omega
  have key : ∀ st, IsSteiner st → |computed m (linkRegE st) n d (10 * i + l) - reg d (10 * i + l)| ≤ K * u := fun st hst => by
    rw [reg_eq_linParOf d i hl]
    exact H st hst _ (fun k hk => hd _ (by omega)) u h0 h1 l hl _ (computed_rounded m (length_linkRegE st parE) (fv_linkRegE hst) d hi hl)
  exact ⟨key _ (.inl rfl), key _ (.inr rfl)⟩

/-- C81: with masses of at least `μ`, the parameters computed by `update_inertial_DYN` from the linear parameters of some bodies are those of the bodies, up to
rounding; linear parameters computed from parameters that were computed from given ones are the given ones, and the other way round, up to rounding. -/
theorem C81_dyn (b : ℝ) {μ : ℝ} (hμ : 0 < μ) : ∃ K u₀, 0 ≤ K ∧ 0 < u₀ ∧ ∀ (n : ℕ) (d : ℕ → ℝ), (∀ k < 10 * n, |d k| ≤ b) → (∀ i < n, μ ≤ |mass d i|) →
    ∀ u, 0 ≤ u → u ≤ u₀ → ∀ m : Machine u,
      ((∀ k < 10 * n, |reg d k| ≤ b) → ∃ r r', dynOfRegOn m n (vecN (10 * n) (reg d)) = vecN (10 * n) r ∧ dynOfRegWOn m n (vecN (10 * n) (reg d)) = vecN (10 * n) r' ∧
        ∀ k < 10 * n, |r k - d k| ≤ K * u ∧ |r' k - d k| ≤ K * u) ∧
      (∃ r r', dynOfRegOn m n (regOfDynOn m n (vecN (10 * n) d)) = vecN (10 * n) r ∧ dynOfRegWOn m n (regOfDynWOn m n (vecN (10 * n) d)) = vecN (10 * n) r' ∧
        ∀ k < 10 * n, |r k - d k| ≤ K * u ∧ |r' k - d k| ≤ K * u) ∧
      ∃ r r', regOfDynOn m n (dynOfRegOn m n (vecN (10 * n) d)) = vecN (10 * n) r ∧ regOfDynWOn m n (dynOfRegWOn m n (vecN (10 * n) d)) = vecN (10 * n) r' ∧
        ∀ k < 10 * n, |r k - d k| ≤ K * u ∧ |r' k - d k| ≤ K * u := by
  obtain ⟨K, u₀, hK, hu, H⟩ := dyn_error b hμ
  refine ⟨K, u₀, hK, hu, fun n d hd hm u h0 h1 m => ?_⟩
  have hne : ∀ {z : ℝ}, μ ≤ |z| → z ≠ 0 := fun h e => by
    rw [e, abs_zero] at h
    exact absurd h (not_le.2 hμ)
  have hm0 : ∀ i < n, reg d (10 * i) = mass d i := fun i _ => by
    rw [show 10 * i = 10 * i + 0 from rfl, reg_eq_linParOf d i (by decide)]
    rfl
  have cR : ∀ {st}, IsSteiner st → ∀ p : ℕ → ℝ, ∀ {i k}, i < n → k < 10 → Expr.Rounded u (parEnv fun k => p (10 * i + k)) (nthE (linkRegE st parE) k)
      (computed m (linkRegE st) n p (10 * i + k)) := fun hst p i k hi hk => computed_rounded m (length_linkRegE _ parE) (fv_linkRegE hst) p hi hk
  have cD : ∀ {st}, IsSteiner st → ∀ p : ℕ → ℝ, ∀ {i k}, i < n → k < 10 → Expr.Rounded u (parEnv fun k => p (10 * i + k)) (nthE (linkDynE st parE) k)
      (computed m (linkDynE st) n p (10 * i + k)) := fun hst p i k hi hk => computed_rounded m (length_linkDynE _ parE) (fv_linkDynE hst) p hi hk
  have mR : ∀ {st}, IsSteiner st → ∀ i < n, computed m (linkRegE st) n d (10 * i) = d (10 * i) := fun {st} hst i hi => by
    have h := cR hst d hi (k := 0) (by decide)
    rw [show nthE (linkRegE st parE) 0 = .var ⟨"par", 0⟩ from rfl] at h
    generalize computed m (linkRegE st) n d (10 * i + 0) = z at h
    cases h
    rfl
  have split : ∀ {k}, k < 10 * n → ∃ i l, i < n ∧ l < 10 ∧ k = 10 * i + l := fun {k} hk => ⟨k / 10, k % 10, by omega, by omega, by omega⟩
  have gen : IsSteiner steinerGenE := .inl rfl
  have wrap : IsSteiner steinerWrapE := .inr rfl
  refine ⟨fun hr => ?_, ?_, ?_⟩
  · have hz : ∀ i < n, reg d (10 * i) ≠ 0 := fun i hi => by
      rw [hm0 i hi]
      exact hne (hm i hi)
    have key : ∀ st, IsSteiner st → ∀ k < 10 * n, |computed m (linkDynE st) n (reg d) k - d k| ≤ K * u := fun st hst k hk => by
      obtain ⟨i, l, hi, hl, rfl⟩ := split hk
      have h := (H st hst (fun k => reg d (10 * i + k)) (fun k hk => hr _ (by omega)) (by rw [Nat.add_zero, hm0 i hi]; exact hm i hi) u h0 h1).1 l hl _
        (cD hst (reg d) hi hl)
      have e : ∀ j < 10, reg d (10 * i + j) = linParOf (fun k => d (10 * i + k)) j := fun j hj => reg_eq_linParOf d i hj
      have e' : invPar (fun k => reg d (10 * i + k)) l = invPar (linParOf fun k => d (10 * i + k)) l := by
        simp only [invPar, e 0 (by decide), e 1 (by decide), e 2 (by decide), e 3 (by decide), e 4 (by decide), e 5 (by decide), e 6 (by decide),
          e 7 (by decide), e 8 (by decide), e 9 (by decide)]
      rwa [e', invPar_linPar (p := fun k => d (10 * i + k)) (hne (hm i hi)) hl] at h
    exact ⟨_, _, dynOn_vecN m steinerGenE n hz, dynOn_vecN m steinerWrapE n hz, fun k hk => ⟨key _ gen k hk, key _ wrap k hk⟩⟩
  · have hz : ∀ st, IsSteiner st → ∀ i < n, computed m (linkRegE st) n d (10 * i) ≠ 0 := fun st hst i hi => by
      rw [mR hst i hi]
      exact hne (hm i hi)
    have key : ∀ st, IsSteiner st → ∀ k < 10 * n, |computed m (linkDynE st) n (computed m (linkRegE st) n d) k - d k| ≤ K * u := fun st hst k hk => by
      obtain ⟨i, l, hi, hl, rfl⟩ := split hk
      exact (H st hst (fun k => d (10 * i + k)) (fun k hk => hd _ (by omega)) (hm i hi) u h0 h1).2.1 (fun k => computed m (linkRegE st) n d (10 * i + k))
        (fun k hk => cR hst d hi hk) l hl _ (cD hst _ hi hl)
    refine ⟨_, _, ?_, ?_, fun k hk => ⟨key _ gen k hk, key _ wrap k hk⟩⟩
    · rw [regOfDynOn, regOn_vecN, dynOfRegOn, dynOn_vecN m steinerGenE n (hz _ gen)]
    · rw [regOfDynWOn, regOn_vecN, dynOfRegWOn, dynOn_vecN m steinerWrapE n (hz _ wrap)]
  · have hz : ∀ i < n, d (10 * i) ≠ 0 := fun i hi => hne (hm i hi)
    have key : ∀ st, IsSteiner st → ∀ k < 10 * n, |computed m (linkRegE st) n (computed m (linkDynE st) n d) k - d k| ≤ K * u := fun st hst k hk => by
      obtain ⟨i, l, hi, hl, rfl⟩ := split hk
      exact (H st hst (fun k => d (10 * i + k)) (fun k hk => hd _ (by omega)) (hm i hi) u h0 h1).2.2 (fun k => computed m (linkDynE st) n d (10 * i + k))
        (fun k hk => cD hst d hi hk) l hl _ (cR hst _ hi hl)
    refine ⟨_, _, ?_, ?_, fun k hk => ⟨key _ gen k hk, key _ wrap k hk⟩⟩
    · rw [dynOfRegOn, dynOn_vecN m steinerGenE n hz, regOfDynOn, regOn_vecN]
    · rw [dynOfRegWOn, dynOn_vecN m steinerWrapE n hz, regOfDynWOn, regOn_vecN]

/-! ## The functions -/

/-- C81: `update_inertial_REG` and `update_inertial_DYN` of the robot on a machine store the vectors of `C81_reg` and `C81_dyn`. -/
theorem C81_robot {u : ℝ} (m : Machine u) {r : Robot} {d : ℕ → ℝ} :
    ((r.arg "par_REG").length = 10 * r.n → r.arg "par_DYN" = vecN (10 * r.n) d → ∃ r', Robot.updateREGOn m r = .ok 1 r' ∧
      r'.arg "par_REG" = regOfDynOn m r.n (vecN (10 * r.n) d) ∧ r'.arg "par_DYN" = r.arg "par_DYN") ∧
    ((r.arg "par_DYN").length = 10 * r.n → r.arg "par_REG" = vecN (10 * r.n) d → (∀ i < r.n, d (10 * i) ≠ 0) → ∃ r', Robot.updateDYNOn m r = .ok 1 r' ∧
      r'.arg "par_DYN" = dynOfRegOn m r.n (vecN (10 * r.n) d) ∧ r'.arg "par_REG" = r.arg "par_REG") := by
  constructor
  · intro hr hd
    have hd' : (r.arg "par_DYN").length = 10 * r.n := by rw [hd, length_vecN]
    refine ⟨(r.touchArg "par_DYN").setArgs "par_REG" (regOfDynOn m r.n (r.arg "par_DYN")), ?_, ?_, ?_⟩
    · unfold Robot.updateREGOn getParDYN
      rw [Act.bind_ok (getPar10_ok hd'), Act.bind_ok (Act.read_run _)]
      unfold setParREG
      rw [Act.bind_ok (s' := (r.touchArg "par_DYN").setArgs "par_REG" (regOfDynOn m r.n (r.arg "par_DYN"))) (a := 1)]
      · rfl
      · rw [Act.bind_ok (Act.read_run _)]
        refine setSized_ok (by rw [arg_touch]; exact hr) ?_
        rw [hd, show regOfDynOn m (r.touchArg "par_DYN").n (vecN (10 * r.n) d) = _ from regOn_vecN m steinerGenE r.n d, length_vecN]
        rfl
    · rw [arg_setArgs, if_pos rfl, hd]
    · rw [arg_setArgs, if_neg (by decide), arg_touch]
  · intro hd hr hz
    have hr' : (r.arg "par_REG").length = 10 * r.n := by rw [hr, length_vecN]
    refine ⟨(r.touchArg "par_REG").setArgs "par_DYN" (dynOfRegOn m r.n (r.arg "par_REG")), ?_, ?_, ?_⟩
    · unfold Robot.updateDYNOn getParREG
      rw [Act.bind_ok (getPar10_ok hr'), Act.bind_ok (Act.read_run _)]
      unfold setParDYN
      rw [Act.bind_ok (s' := (r.touchArg "par_REG").setArgs "par_DYN" (dynOfRegOn m r.n (r.arg "par_REG"))) (a := 1)]
      · rfl
      · rw [Act.bind_ok (Act.read_run _)]
        refine setSized_ok (by rw [arg_touch]; exact hd) ?_
        rw [hr, show dynOfRegOn m (r.touchArg "par_REG").n (vecN (10 * r.n) d) = _ from dynOn_vecN m steinerGenE r.n hz, length_vecN]
        rfl
    · rw [arg_setArgs, if_pos rfl, hr]
    · rw [arg_setArgs, if_neg (by decide), arg_touch]

/-- C81: `set_par_REG` with update of an object of the generated class on a machine. -/
theorem C81_class {u : ℝ} (m : Machine u) {c : Wrap.Cfg} {o : Wrap.Obj} (hd : (o.vec .DYN).length = 10 * c.n) (hr : (o.vec .REG).length = 10 * c.n) {p : ℕ → ℝ}
    (hz : ∀ i < c.n, p (10 * i) ≠ 0) :
    ∃ o', Wrap.setREGOn m c (vecN (10 * c.n) p) true o = .ok o' ∧ o'.vec .REG = vecN (10 * c.n) p ∧ o'.vec .DYN = dynOfRegWOn m c.n (vecN (10 * c.n) p) ∧
      ∀ f, f ≠ .REG → f ≠ .DYN → o'.vec f = o.vec f := by
  refine ⟨(o.set .REG (vecN (10 * c.n) p)).set .DYN (dynOfRegWOn m c.n (vecN (10 * c.n) p)), ?_, ?_, ?_, fun f h1 h2 => ?_⟩
  · unfold Wrap.setREGOn
    simp only [length_vecN, hr, if_true]
    rw [Wrap.updateDYNOn, Wrap.set_vec_same, length_vecN, if_neg (lt_irrefl _), Wrap.set_vec_ne _ _ (by decide), Wrap.setSeg_full]
    · rfl
    · rw [show dynOfRegWOn m c.n (vecN (10 * c.n) p) = _ from dynOn_vecN m steinerWrapE c.n hz, length_vecN, hd]
  · rw [Wrap.set_vec_ne _ _ (by decide), Wrap.set_vec_same]
  · rw [Wrap.set_vec_same]
  · rw [Wrap.set_vec_ne _ _ h2, Wrap.set_vec_ne _ _ h1]

section

variable [Fl] {y : Yaml}

/-- C81, adaptive control on a machine: all inertial parameters are symbolic, and an object of the generated class is given the linear parameters of the
bodies `d`; it converts them and computes the answers.  All errors together are at most a constant times those of the operations. -/
theorem C81_adaptive {c₀ : Conf} (hj : JointsOk c₀) (ha : ∀ i < 10 * c₀.n, c₀.fdyn i ≠ 0) {f : String} (hf : f ∈ library c₀) (b : ℝ)
    {μ : ℝ} (hμ : 0 < μ) :
    ∃ K u₀, 0 ≤ K ∧ 0 < u₀ ∧ ∀ (c : Conf) (s : State c) (g : Robot) (o : Wrap.Obj), Retuned c₀ c → Generated y c s g o → (o.vec .DYN).length = 10 * c.n →
      (o.vec .REG).length = 10 * c.n → ∀ d : ℕ → ℝ, Retuned c₀ (withDyn c d) → Within b (withDyn c d) (State.withDyn s d) → (∀ k < 10 * c.n, |reg d k| ≤ b) →
      (∀ i < c.n, μ ≤ |mass d i|) → ∀ u, 0 ≤ u → u ≤ u₀ → ∀ m : Machine u,
        ∃ o', Wrap.setREGOn m (Wrap.cfgOf g) (vecN (10 * c.n) (reg d)) true o = .ok o' ∧
          ∀ R₀, Source y (withDyn c d) (State.withDyn s d) R₀ → ∀ {k l : ℕ} {A : Matrix (Fin k) (Fin l) ℝ}, Returns R₀ f A →
            ReturnsNear (K * u) (classAnswersOn m g o') f A := by
  obtain ⟨K₁, u₁, hK₁, hu₁, H₁⟩ := C81_inputs (y := y) hj hf b
  obtain ⟨K₂, u₂, hK₂, hu₂, H₂⟩ := C81_dyn b hμ
  refine ⟨K₁ * (1 + K₂), min u₂ (u₁ / (1 + K₂)), by positivity, lt_min hu₂ (by positivity),
    fun c s g o hc hg hlD hlR d hret hb hreg hm u h0 h1 m => ?_⟩
  have hn₀ : c.n = c₀.n := congrArg List.length hc.types
  have hflag : ∀ i < 10 * c.n, c.fdyn i ≠ 0 := fun i hi => by
    rw [hc.fdyn]
    exact ha i (by rwa [← hn₀])
  obtain ⟨_, r', _, hr', hclose⟩ := (H₂ c.n d (fun k hk => hb.dyn k hk (hflag k hk)) hm u h0 (h1.trans (min_le_left _ _)) m).1 hreg
  have hgn : (Wrap.cfgOf g).n = c.n := by
    obtain ⟨c₁, hd₁, hj₁, hc₁⟩ := hg.file
    obtain ⟨name, e⟩ := hg.gen
    obtain ⟨g', e', hd'⟩ := fromFile_ok hd₁ hj₁.1 (typed_of hj₁) (robotName_of_ok hd₁ e)
    obtain rfl : g' = g := by rw [e] at e'; cases e'; rfl
    rw [Wrap.cfgOf_fixed hd'.toFixed]
    exact (congrArg List.length hc₁.types).symm
  have hz : ∀ i < (Wrap.cfgOf g).n, reg d (10 * i) ≠ 0 := fun i hi e => by
    have h2 := hm i (hgn ▸ hi)
    have h3 : reg d (10 * i) = mass d i := by
      rw [show 10 * i = 10 * i + 0 from rfl, reg_eq_linParOf d i (by decide)]
      rfl
    rw [← h3, e, abs_zero] at h2
    exact absurd h2 (not_le.2 hμ)
  obtain ⟨o', e1, -, e3, e4⟩ := C81_class m (c := Wrap.cfgOf g) (o := o) (by rw [hgn]; exact hlD) (by rw [hgn]; exact hlR) hz
  rw [hgn] at e1 e3
  refine ⟨o', e1, fun R₀ hR₀ k l A hA => ?_⟩
  set d' : ℕ → ℝ := fun i => if i < 10 * c.n then r' i else d i with hd'
  have hout : ∀ i, c₀.fdyn i = 0 → d' i = d i := fun i hi => if_neg fun h => hflag i h (by rw [hc.fdyn]; exact hi)
  have hret' : Retuned c₀ (withDyn c d') := { hret with dyn := fun i hi => (hout i hi).trans (hret.dyn i hi) }
  have hcd : Retuned c (withDyn c d') :=
    { retuned_refl c with
      dyn := fun i hi => by
        have hi₀ : c₀.fdyn i = 0 := by rw [← hc.fdyn]; exact hi
        exact (hout i hi₀).trans ((hret.dyn i hi₀).trans (hc.dyn i hi₀).symm) }
  have hδ : 0 ≤ K₂ * u := by positivity
  have hmeas : Measured (K₂ * u) (withDyn c d) (withDyn c d') (State.withDyn s d) (State.withDyn s d') := by
    have hz : ∀ x : ℝ, |x - x| ≤ K₂ * u := fun x => by rwa [sub_self, abs_zero]
    exact ⟨fun i _ _ => hz _, fun i _ _ => hz _, fun i _ _ => hz _, fun i _ _ => hz _, fun i _ _ => hz _, fun i _ _ => hz _, fun i => hz _,
      fun i _ _ => hz _, fun i _ _ => hz _, fun i _ _ => hz _, fun i _ _ => hz _, fun i _ _ => hz _, fun i _ _ => hz _, fun i _ _ => hz _,
      fun i hi _ => by
        show |d' i - d i| ≤ K₂ * u
        rw [hd']
        simp only
        rw [if_pos (show i < 10 * c.n from hi)]
        exact (hclose i hi).2,
      fun i _ _ => hz _, fun i _ _ => hz _, fun i _ _ => hz _, fun i _ _ => hz _, fun i _ _ => hz _⟩
  have hsym : symbolics (10 * c.n) c.fdyn d' = vecN (10 * c.n) r' := by
    unfold symbolics vecN
    rw [List.filter_eq_self.2 fun i hi => by simpa using hflag i (List.mem_range.1 hi)]
    refine List.map_congr_left fun i hi => ?_
    rw [hd']
    simp only
    rw [if_pos (List.mem_range.1 hi)]
  have hgen : Generated y (withDyn c d') (State.withDyn s d') g o' := by
    obtain ⟨c₁, hd₁, hj₁, hc₁⟩ := hg.file
    refine ⟨⟨c₁, hd₁, hj₁, retuned_trans hc₁ hcd⟩, hg.gen, ?_⟩
    have h := hg.members
    have hv : ∀ {f : Wrap.Field}, f ≠ .REG → f ≠ .DYN → ∀ P : List Num → Prop, P (o.vec f) → P (o'.vec f) := fun h1 h2 P hP => by
      rwa [e4 _ h1 h2]
    have hD : o'.vec .DYN = symbolics (10 * c.n) c.fdyn d' := by rw [e3, hr', hsym]
    exact {
      q := hv (by decide) (by decide) (· = stored s.q) h.q
      dq := hv (by decide) (by decide) (· = stored s.dq) h.dq
      ddq := hv (by decide) (by decide) (· = stored s.ddq) h.ddq
      d3q := hv (by decide) (by decide) (· = stored s.d3q) h.d3q
      dqr := hv (by decide) (by decide) (· = stored s.dqr) h.dqr
      ddqr := hv (by decide) (by decide) (· = stored s.ddqr) h.ddqr
      w := hv (by decide) (by decide) (· = stored s.w) h.w
      x := fun t => hv (by decide) (by decide) (· = stored s.x) (h.x t)
      dx := fun t => hv (by decide) (by decide) (· = stored s.dx) (h.dx t)
      ddx := fun t => hv (by decide) (by decide) (· = stored s.ddx) (h.ddx t)
      DH := hv (by decide) (by decide) (symbolics (4 * c.n) c.fdh c.dh <+: ·) h.DH
      W2L := hv (by decide) (by decide) (symbolics 6 c.fw2l c.w2l <+: ·) h.W2L
      EE := hv (by decide) (by decide) (symbolics 6 c.fee c.ee <+: ·) h.EE
      grav := hv (by decide) (by decide) (symbolics 3 c.fg c.g <+: ·) h.grav
      DYN := hD ▸ List.prefix_refl _
      Dl := fun t => hv (by decide) (by decide) (symbolics (c.n * c.dlO) c.fdl c.dl <+: ·) (h.Dl t)
      K := fun t => hv (by decide) (by decide) (symbolics (c.ne * c.kO) c.fK c.K <+: ·) (h.K t)
      D := fun t => hv (by decide) (by decide) (symbolics (c.ne * c.dO) c.fD c.D <+: ·) (h.D t)
      Dm := fun t => hv (by decide) (by decide) (symbolics (c.ne * c.dmO) c.fDm c.Dm <+: ·) (h.Dm t)
      Mm := fun t => hv (by decide) (by decide) (symbolics c.ne c.fMm c.Mm <+: ·) (h.Mm t) }
  have hfin := H₁ _ _ _ _ hret hret' hb (K₂ * u) hδ hmeas u h0 (by
    have := (le_div_iff₀ (by positivity)).1 (h1.trans (min_le_right _ _))
    nlinarith) m R₀ _ _ hR₀ (.generated hgen) hA
  rwa [show K₁ * (u + K₂ * u) = K₁ * (1 + K₂) * u by ring] at hfin

end

namespace Ex

/-- The bodies of the examples. -/
def counted (k : ℕ) : ℝ := k + 1

theorem counted_mass (i : ℕ) : 1 ≤ |mass counted i| := by
  unfold mass counted
  rw [abs_of_nonneg (by positivity)]
  have : (0 : ℝ) ≤ ((10 * i : ℕ) : ℝ) := by positivity
  linarith

theorem counted_le (n : ℕ) : ∃ b, ∀ k < 10 * n, |counted k| ≤ b ∧ |reg counted k| ≤ b :=
  ⟨∑ k ∈ Finset.range (10 * n), (|counted k| + |reg counted k|), fun k hk => by
    have := Finset.single_le_sum (f := fun k => |counted k| + |reg counted k|) (fun k _ => by positivity) (Finset.mem_range.2 hk)
    constructor
    · linarith [abs_nonneg (reg counted k)]
    · linarith [abs_nonneg (counted k)]⟩

/-- The state of the arm with all positions off by `δ`. -/
def shifted (δ : ℝ) : Spec.State armTuned := { armState with q := fun i => armState.q i + δ }

/-- The arm of the examples, its positions measured with the error `δ`: the mass matrix is off by at most a constant times `u + δ`. -/
example : ∃ K u₀, 0 ≤ K ∧ 0 < u₀ ∧ ∀ u δ, 0 ≤ u → 0 ≤ δ → u + δ ≤ u₀ → ∀ m : Machine u, ∃ r, @Running fl (fileOf arm) armTuned (shifted δ) r ∧
    ReturnsNear (K * (u + δ)) (answersOn m r) "M" (@massOf fl armTuned armState.q) := by
  let _ := fl
  obtain ⟨b, hb⟩ := C76_bounded armState
  obtain ⟨K, u₀, h0, h1, H⟩ := C81_inputs (y := fileOf arm) joints_arm (f := "M") (by decide) b
  refine ⟨K, u₀, h0, h1, fun u δ hu hδ hu' m => ?_⟩
  obtain ⟨r, h⟩ := running_arm
  obtain ⟨r', h'⟩ := C56_reachable describes_arm joints_arm retuned_arm (shifted δ)
  have hz : ∀ x : ℝ, |x - x| ≤ δ := fun x => by rwa [sub_self, abs_zero]
  refine ⟨r', h', H _ _ _ _ retuned_arm retuned_arm hb δ hδ ?_ u hu hu' m _ _ _ (.robot h) (.robot h') (C58_matrices (.robot h) unit_arm).1⟩
  exact ⟨fun i _ _ => by
      show |armState.q _ + δ - armState.q _| ≤ δ
      rw [add_sub_cancel_left, abs_of_nonneg hδ], fun i _ _ => hz _, fun i _ _ => hz _, fun i _ _ => hz _, fun i _ _ => hz _, fun i _ _ => hz _, fun i => hz _,
    fun i _ _ => hz _, fun i _ _ => hz _, fun i _ _ => hz _, fun i _ _ => hz _, fun i _ _ => hz _, fun i _ _ => hz _, fun i _ _ => hz _,
    fun i _ _ => hz _, fun i _ _ => hz _, fun i _ _ => hz _, fun i _ _ => hz _, fun i _ _ => hz _, fun i _ _ => hz _⟩

/-- The conversions of two bodies. -/
example : ∃ K u₀, 0 ≤ K ∧ 0 < u₀ ∧ ∀ u, 0 ≤ u → u ≤ u₀ → ∀ m : Machine u,
    (∃ r, regOfDynOn m 2 (vecN 20 counted) = vecN 20 r ∧ ∀ k < 20, |r k - reg counted k| ≤ K * u) ∧
    ∃ r, dynOfRegOn m 2 (vecN 20 (reg counted)) = vecN 20 r ∧ ∀ k < 20, |r k - counted k| ≤ K * u := by
  obtain ⟨b, hb⟩ := counted_le 2
  obtain ⟨K₁, u₁, hK₁, hu₁, H₁⟩ := C81_reg b
  obtain ⟨K₂, u₂, hK₂, hu₂, H₂⟩ := C81_dyn b one_pos
  refine ⟨max K₁ K₂, min u₁ u₂, le_max_of_le_left hK₁, lt_min hu₁ hu₂, fun u h0 h1 m => ?_⟩
  obtain ⟨r, _, e1, _, h2⟩ := H₁ 2 counted (fun k hk => (hb k hk).1) u h0 (h1.trans (min_le_left _ _)) m
  obtain ⟨r', _, e3, _, h4⟩ := (H₂ 2 counted (fun k hk => (hb k hk).1) (fun i _ => counted_mass i) u h0 (h1.trans (min_le_right _ _)) m).1 fun k hk => (hb k hk).2
  exact ⟨⟨r, e1, fun k hk => (h2 k hk).1.trans (mul_le_mul_of_nonneg_right (le_max_left _ _) h0)⟩,
    r', e3, fun k hk => (h4 k hk).1.trans (mul_le_mul_of_nonneg_right (le_max_right _ _) h0)⟩

/-- A state of the robot of the README. -/
def thirdState : Spec.State third := ⟨fun _ => 1, fun _ => 2, fun _ => 3, fun _ => 4, fun _ => 5, fun _ => 6, fun _ => 7, fun _ => 8, fun _ => 9, fun _ => 10⟩

theorem generated_third [Fl] : ∃ g o, Generated (fileOf third) third thirdState g o ∧ (o.vec .DYN).length = 10 * third.n ∧ (o.vec .REG).length = 10 * third.n := by
  obtain ⟨g, e, hd⟩ := fromFile_ok (name := "third") describes_third joints_third.1 (typed_of joints_third) (robotName_of_check (f := "M") (by decide +kernel))
  obtain ⟨calls, o, eo, h⟩ := C61_reachable describes_third joints_third (retuned_refl third) thirdState e
  rw [Wrap.cfgOf_fixed hd.toFixed] at eo
  have hs := Wrap.sized_runAll _ (Wrap.sized_init _) eo
  exact ⟨g, o, h, hs .DYN id, hs .REG id⟩

/-- The robot of the README, given the linear parameters of another body: the mass matrix computed with the type `double` or any other arithmetic is that
of the body up to a constant times the errors. -/
example [Fl] : ∃ K u₀, 0 ≤ K ∧ 0 < u₀ ∧ ∀ u, 0 ≤ u → u ≤ u₀ → ∀ m : Machine u, ∃ g o o', Generated (fileOf third) third thirdState g o ∧
    Wrap.setREGOn m (Wrap.cfgOf g) (vecN 10 (reg counted)) true o = .ok o' ∧
    ReturnsNear (K * u) (classAnswersOn m g o') "M" (massOf (withDyn third counted) (State.withDyn thirdState counted).q) := by
  obtain ⟨b₁, hb₁⟩ := C76_bounded (State.withDyn thirdState counted)
  obtain ⟨b₂, hb₂⟩ := counted_le 1
  have hret : Retuned third (withDyn third counted) := { retuned_refl third with dyn := fun i hi => absurd hi one_ne_zero }
  obtain ⟨K, u₀, h0, h1, H⟩ := C81_adaptive (y := fileOf third) joints_third (fun _ _ => one_ne_zero) (f := "M") (Fn.mem_library.2 ⟨.M, trivial, rfl⟩)
    (max b₁ b₂) one_pos
  refine ⟨K, u₀, h0, h1, fun u hu hu' m => ?_⟩
  obtain ⟨g, o, h, hD, hR⟩ := generated_third
  obtain ⟨o', e, H'⟩ := H third thirdState g o (retuned_refl _) h hD hR counted hret (within_mono (le_max_left _ _) hb₁)
    (fun k hk => (hb₂ k hk).2.trans (le_max_right _ _)) (fun i _ => counted_mass i) u hu hu' m
  obtain ⟨r, hr⟩ := C56_reachable describes_third joints_third hret (State.withDyn thirdState counted)
  exact ⟨g, o, o', h, e, H' _ (.robot hr) (C58_matrices (.robot hr) (unit_of_symbolic (fun _ => rfl) (fun _ => rfl) fun _ => rfl)).1⟩

end Ex

end

end Thunder
