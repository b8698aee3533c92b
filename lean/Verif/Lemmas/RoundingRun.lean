import Verif.Lemmas.RoundingFn
import Verif.Lemmas.SystemRun
import Verif.Spec.Rounding

/-!
# Answers with rounding errors: the calls
-/

open scoped Classical

namespace Thunder

noncomputable section

open Spec Act Robot SX

variable {c : Conf} {r : Robot} {s : State c} {u : ℝ}

/-! ## Bounds that hold for all entries -/

theorem tame_all {P : (Var → ℝ) → Prop} {S : Set Var} {b : ℝ} (hb : 0 ≤ b) : ∀ l : List Expr, (∀ e ∈ l, Expr.TameOn P S e) → ∃ K u₀, 0 ≤ K ∧ 0 < u₀ ∧
    ∀ e ∈ l, ∀ ρ : Var → ℝ, P ρ → (∀ v ∈ e.fv, |ρ v| ≤ b) → ∀ u, 0 ≤ u → u ≤ u₀ → ∀ v, e.Rounded u ρ v → |v - e.eval ρ| ≤ K * u
  | [], _ => ⟨0, 1, le_refl _, one_pos, fun e he => absurd he List.not_mem_nil⟩
  | a :: l, h => by
    obtain ⟨K, u₀, hK, hu, H⟩ := tame_all hb l fun e he => h e (List.mem_cons_of_mem _ he)
    obtain ⟨K', _, u', E⟩ := (h a List.mem_cons_self).error hb
    refine ⟨max K K', min u₀ u', hK.trans (le_max_left _ _), lt_min hu E.pos, fun e he ρ hP hρ u h0 h1 v hv => ?_⟩
    rcases List.mem_cons.1 he with rfl | he
    · exact (E.err ρ hP hρ u h0 (h1.trans (min_le_right _ _)) v hv).trans (mul_le_mul_of_nonneg_right (le_max_right _ _) h0)
    · exact (H e he ρ hP hρ u h0 (h1.trans (min_le_left _ _)) v hv).trans (mul_le_mul_of_nonneg_right (le_max_left _ _) h0)

/-! ## Values of the symbols -/

theorem Spec.Within.env {b : ℝ} (h : Within b c s) {k : Key} (hh : k.here c) (h4 : k ≠ .d4q) (hx : k ≠ .ddxr) {v : Var} (hv : v ∈ k.vars c) :
    |env c s v| ≤ b := by
  obtain ⟨nm, i⟩ := v
  obtain ⟨e, hi, hf⟩ := Key.mem_vars.1 hv
  simp only at e hi hf
  subst e
  rw [env_key]
  have hd : ∀ {m : ℕ} (x : Fin m → ℝ) (_ : ∀ i, |x i| ≤ b) (_ : i < m), |if h : i < m then x ⟨i, h⟩ else 0| ≤ b := fun x hx him => by
    rw [dif_pos him]
    exact hx _
  cases k <;> first | contradiction | skip
  · exact hd _ h.q hi
  · exact hd _ h.dq hi
  · exact hd _ h.ddq hi
  · exact hd _ h.d3q hi
  · exact hd _ h.dqr hi
  · exact hd _ h.ddqr hi
  · exact hd _ h.w hi
  · exact hd _ h.x (by rwa [size_x hh] at hi)
  · exact hd _ h.dx (by rwa [size_dx hh] at hi)
  · exact hd _ h.ddx (by rwa [size_ddx hh] at hi)
  · exact h.dyn i (by rw [Nat.mul_comm]; exact hi) hf
  · exact h.dl i hi hf
  · exact h.K i (by rwa [size_K hh] at hi) hf
  · exact h.D i (by rwa [size_D hh] at hi) hf
  · exact h.Dm i (by rwa [size_Dm hh] at hi) hf
  · exact h.Mm i (by rwa [size_Mm hh] at hi) hf
  · exact h.dh i (by rw [Nat.mul_comm]; exact hi) hf
  · exact h.w2l i hi hf
  · exact h.ee i hi hf
  · exact h.g i hi hf

/-- The symbols of an input with their values. -/
theorem inVals_env {L : Set Reg} (hL : Live c r L) (hr : Holds c s r) {k : Key} (hh : k.here c) (h4 : k ≠ .d4q) (hx : k ≠ .ddxr) :
    inVals c r k = some ((k.vars c).map fun v => (v, some (env c s v))) := by
  cases hk : k.isVar with
  | true => exact inVals_var hr hk hh h4 hx
  | false =>
    rw [inVals_par hL hk hh]
    refine congrArg some (List.map_congr_left fun v hv => ?_)
    obtain ⟨nm, i⟩ := v
    obtain ⟨e, -, -⟩ := Key.mem_vars.1 hv
    simp only at e
    subst e
    rw [fileVal_key, env_par s hk]

/-! ## The calls -/

theorem callOn_keys (m : Machine u) (ks : List Key) (A : SX) : CFun.callOn m ⟨ks.map (Key.vars c), A⟩ ((ks.map Key.str).map r.arg) =
    (ks.mapM (inVals c r)).map fun l => CFun.evalOn m ⟨ks.map (Key.vars c), A⟩ l.flatten := by
  have key : ∀ ks : List Key, ((List.zip (ks.map (Key.vars c)) ((ks.map Key.str).map r.arg)).mapM fun p =>
      (fitInput p.1.length p.2).map fun v => List.zip p.1 v) = ks.mapM (inVals c r) := by
    intro ks
    induction ks with
    | nil => rfl
    | cons k ks ih =>
      rw [List.map_cons, List.map_cons, List.map_cons, List.zip_cons_cons, List.mapM_cons, ih, List.mapM_cons]
      rfl
  unfold CFun.callOn
  rw [if_pos (by simp), key]

theorem length_evalOn (m : Machine u) (f : CFun) (l : List (Var × Num)) : (f.evalOn m l).length = f.out.rows * f.out.cols := by
  unfold CFun.evalOn
  split_ifs <;> rw [List.length_map, length_elements]

theorem getOn_reg (m : Machine u) {g : Reg} {ks : List Key} (h : HasReg c r g ks) {l : List (List (Var × Num))} (hl : ks.mapM (inVals c r) = some l) :
    answersOn m r g.name ⟨g.expr.rows, g.expr.cols, CFun.evalOn m ⟨ks.map (Key.vars c), g.expr⟩ l.flatten⟩ := by
  have hm : r.mod g.name = g.expr := by simp [Robot.mod, SMap.get, h.model]
  have hins : r.model.ins g.name (SX.zeros 0 0) = r.model := by simp [SMap.ins, SMap.has, h.model]
  refine ⟨(ks.map Key.str).foldl touchArg r, ?_⟩
  unfold Robot.getOn
  rw [bind_ok (read_run _), h.funArgs]
  simp only
  rw [bind_ok (modify_run _ _), h.funs, bind_ok (ofIdx_some _ _), callOn_keys, hins, hl]
  have hlen := length_evalOn m ⟨ks.map (Key.vars c), g.expr⟩ l.flatten
  rw [Option.map_some, bind_ok (ofExc_some _ _), hm, fill, if_pos hlen.le, bind_ok (ofIdx_some _ _), hlen, Nat.sub_self, List.replicate_zero, List.append_nil]
  rfl

theorem getterOn_reg (m : Machine u) {g : Reg} {ks : List Key} (h : HasReg c r g ks) {o : Wrap.Obj} {l : List (List (Var × Num))}
    (hl : ks.mapM (Wrap.readKey c o) = some l) :
    classAnswersOn m r o g.name ⟨g.expr.rows, g.expr.cols, CFun.evalOn m ⟨ks.map (Key.vars c), g.expr⟩ l.flatten⟩ := by
  have hm : r.mod g.name = g.expr := by simp [Robot.mod, SMap.get, h.model]
  have ha : r.funArgs.get g.name [] = ks.map Key.str := by simp [SMap.get, h.funArgs]
  unfold classAnswersOn Wrap.getterOn
  rw [h.funs, ha, Wrap.mapM_member]
  simp only
  rw [if_pos (by simp), Wrap.mapM_readKey, hm, hl]
  simp only
  have hlen := length_evalOn m ⟨ks.map (Key.vars c), g.expr⟩ l.flatten
  rw [fill, if_pos hlen.le, hlen, Nat.sub_self, List.replicate_zero, List.append_nil]

/-- The values computed by the machine. -/
theorem evalOn_env (m : Machine u) {ks : List Key} {A : SX} :
    ∃ ρ : Var → ℝ, (∀ v ∈ keySet c ks, ρ v = env c s v) ∧
      CFun.evalOn m ⟨ks.map (Key.vars c), A⟩ (ks.map fun k => (k.vars c).map fun v => (v, (some (env c s v) : Num))).flatten =
        A.elements.map fun e => some (m.ev ρ e) := by
  have hmem : ∀ p ∈ (ks.map fun k => (k.vars c).map fun v => (v, (some (env c s v) : Num))).flatten, p.2 = some (env c s p.1) := by
    intro p hp
    obtain ⟨a, ha, hp⟩ := List.mem_flatten.1 hp
    obtain ⟨k, -, rfl⟩ := List.mem_map.1 ha
    obtain ⟨v, -, rfl⟩ := List.mem_map.1 hp
    rfl
  refine ⟨_, fun v hv => ?_, if_pos fun p hp => by rw [hmem p hp]; simp⟩
  obtain ⟨k, hk, hvk⟩ := hv
  rw [bound_of_mem (ρ := env c s) hmem]
  · rfl
  · exact ⟨(v, some (env c s v)), List.mem_flatten.2 ⟨_, List.mem_map.2 ⟨k, hk, rfl⟩,
      (List.mem_map (f := fun v => (v, (some (env c s v) : Num)))).2 ⟨v, hvk, rfl⟩⟩, rfl⟩

/-- The keys of a registered function. -/
theorem HasReg.ok [Fl] {f : Fn} {ks : List Key} (hf : f.Valid c) (H : HasReg c r (f.reg c) ks) : ∀ k ∈ ks, k.here c ∧ k ≠ .d4q ∧ k ≠ .ddxr := by
  obtain ⟨su, po, h1, h2, rfl⟩ := H.keys
  have inj : Function.Injective Key.str := fun a b => Key.str_inj
  obtain rfl : su = f.sure := List.map_injective_iff.2 inj h1.symm
  obtain rfl : po = f.pos c.n := List.map_injective_iff.2 inj h2.symm
  intro k hk
  refine Fn.here_keys hf k ?_
  rcases List.mem_append.1 hk with hk | hk
  · exact List.mem_append_left _ hk
  · exact List.mem_append_right _ (List.mem_filter.1 hk).1

/-- What is answered on a machine, with the symbols that occur. -/
theorem onMachine_keys [Fl] {y : Yaml} {m : Machine u} {R R' : String → Mat → Prop} (h : OnMachine m y c s R R') {f : Fn} (hf : f.Valid c) :
    Source y c s R ∧ ∃ ρ : Var → ℝ, (∀ i j, ∀ v ∈ ((f.expr (base c) c).e i j).fv, ρ v = env c s v) ∧
      (∀ i j, ∀ v ∈ ((f.expr (base c) c).e i j).fv, ∃ k : Key, k.here c ∧ k ≠ .d4q ∧ k ≠ .ddxr ∧ v ∈ k.vars c) ∧
      R' f.name ⟨(f.expr (base c) c).rows, (f.expr (base c) c).cols, (f.expr (base c) c).elements.map fun e => some (m.ev ρ e)⟩ := by
  cases h with
  | @robot r h =>
    obtain ⟨c₀, hd, hj, hc⟩ := h.file
    have L := live_of hd hj h.use hc h.args
    obtain ⟨ks, H⟩ := L.reg (f.reg c) ⟨f, hf, rfl⟩
    have hk := HasReg.ok hf H
    have hl : ks.mapM (inVals c r) = some (ks.map fun k => (k.vars c).map fun v => (v, (some (env c s v) : Num))) :=
      mapM_some fun k hk' => inVals_env L h.args (hk k hk').1 (hk k hk').2.1 (hk k hk').2.2
    obtain ⟨ρ, hρ, e⟩ := evalOn_env (s := s) m (ks := ks) (A := (f.reg c).expr)
    have ha := getOn_reg m H hl
    rw [e] at ha
    refine ⟨.robot h, ρ, fun i j v hv => hρ v (H.over i j hv), fun i j v hv => ?_, ha⟩
    obtain ⟨k, hk', hvk⟩ := H.over i j hv
    exact ⟨k, (hk k hk').1, (hk k hk').2.1, (hk k hk').2.2, hvk⟩
  | @generated g o h =>
    obtain ⟨c₀, hd, hj, hc⟩ := h.file
    obtain ⟨name, e⟩ := h.gen
    obtain ⟨r, ho, hr⟩ := running_reach hd hj hc s e
    have L := live_of hd hj hr.use hc hr.args
    obtain ⟨ks, H⟩ := L.reg (f.reg c) ⟨f, hf, rfl⟩
    have hk := HasReg.ok hf H
    have hl : ks.mapM (Wrap.readKey c o) = some (ks.map fun k => (k.vars c).map fun v => (v, (some (env c s v) : Num))) :=
      mapM_some fun k hk' => by
        rw [(h.members.holds hr.args (hk k hk').1 (hk k hk').2.1 (hk k hk').2.2).read]
        exact inVals_env L hr.args (hk k hk').1 (hk k hk').2.1 (hk k hk').2.2
    obtain ⟨ρ, hρ, e'⟩ := evalOn_env (s := s) m (ks := ks) (A := (f.reg c).expr)
    have ha := getterOn_reg m H hl
    rw [e'] at ha
    refine ⟨.generated h, ρ, fun i j v hv => hρ v (H.over i j hv), fun i j v hv => ?_, ?_⟩
    · obtain ⟨k, hk', hvk⟩ := H.over i j hv
      exact ⟨k, (hk k hk').1, (hk k hk').2.1, (hk k hk').2.2, hvk⟩
    · have e2 : classAnswersOn m r o = classAnswersOn m g o := by
        rw [show r = { g with args := r.args } from ho]
        rfl
      rw [← e2]
      exact ha

/-- What is answered on a machine. -/
theorem onMachine [Fl] {y : Yaml} {m : Machine u} {R R' : String → Mat → Prop} (h : OnMachine m y c s R R') {f : Fn} (hf : f.Valid c) :
    Source y c s R ∧ ∃ ρ : Var → ℝ, (∀ i j, ∀ v ∈ ((f.expr (base c) c).e i j).fv, ρ v = env c s v) ∧
      (∀ b, Within b c s → ∀ i j, ∀ v ∈ ((f.expr (base c) c).e i j).fv, |ρ v| ≤ b) ∧
      R' f.name ⟨(f.expr (base c) c).rows, (f.expr (base c) c).cols, (f.expr (base c) c).elements.map fun e => some (m.ev ρ e)⟩ := by
  obtain ⟨hS, ρ, hρ, hk, hR⟩ := onMachine_keys h hf
  refine ⟨hS, ρ, hρ, fun b hb i j v hv => ?_, hR⟩
  obtain ⟨k, h1, h2, h3, h4⟩ := hk i j v hv
  rw [hρ i j v hv]
  exact hb.env h1 h2 h3 h4

end

end Thunder
