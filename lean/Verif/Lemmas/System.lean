import Verif.Lemmas.Live
import Verif.Lemmas.User
import Verif.Lemmas.Friction
import Verif.Spec.System

/-!
# A robot in use: what `get` returns
-/

open scoped Classical

namespace Thunder

noncomputable section

open Spec Act Robot SX

variable {c c' : Conf} {r r' : Robot}

/-! ## Histories of calls -/

namespace Robot

/-- The robots differ at most in their arguments. -/
def Only (r₀ r : Robot) : Prop := r = { r₀ with args := r.args }

theorem argInv_only (r₀ : Robot) : ArgInv (Only r₀) fun _ _ _ => True where
  touch r k h := by unfold Only at *; rw [h]; rfl
  set r k v h _ := by unfold Only at *; rw [h]; rfl
  same _ _ _ _ _ := trivial

theorem keeps_only {r₀ : Robot} (hr : Registered r₀) {x : RCall} (hx : Use x) : Keeps (Only r₀) x.run := by
  refine keeps_arg_call (argInv_only r₀) (fun _ _ _ _ => trivial) x (fun name _ => ?_) (fun k v _ r h => (argInv_only r₀).set r k v h trivial)
    (fun f e a d o he => ?_) (fun he => ?_) (fun he => ?_)
  · refine Keeps.readI fun r h => ?_
    have h2 : r.funArgs = r₀.funArgs := by rw [h]
    have h3 : r.model = r₀.model := by rw [h]
    cases hf : r.funArgs.find name with
    | none => exact h
    | some fa =>
      have hm : r.model.has name = true := by
        rw [h3]
        refine hr name ?_
        unfold SMap.has
        rw [← h2, hf]
        rfl
      have hins : r.model.ins name (SX.zeros 0 0) = r.model := by simp [SMap.ins, hm]
      simp only
      rw [bind_ok (modify_run _ _), hins]
      have hk : Only r₀ (fa.foldl touchArg r) := keeps_touches (argInv_only r₀) fa r h
      exact ((Keeps.ofIdx (I := Only r₀) _).bind fun _ => (Keeps.ofExc _).bind fun _ => (Keeps.ofIdx _).bind fun _ => Keeps.pure _) _ hk
  · rw [he] at hx; exact hx.elim
  · rw [he] at hx; exact hx.elim
  · rw [he] at hx; exact hx.elim

theorem after_only {r₀ r : Robot} (hr : Registered r₀) {hist : List RCall} (hh : ∀ x ∈ hist, Use x) (e : after hist r₀ = some r) : Only r₀ r :=
  after_keeps (I := Only r₀) (fun x hx => keeps_only hr (hh x hx)) (show Only r₀ r₀ from rfl) e

end Robot

/-! ## Other values of the symbolic parameters -/

namespace Spec.Retuned

variable (h : Retuned c c')
include h

theorem n : c'.n = c.n := by unfold Conf.n; rw [h.types]
theorem ne : c'.ne = c.ne := by unfold Conf.ne; rw [h.types]
theorem size (k : Key) : k.size c' = k.size c := by
  cases k <;> simp only [Key.size, h.n, h.ne, h.elastic, h.kO, h.dO, h.dmO, h.dlO]
theorem flag (k : Key) : k.flag c' = k.flag c := by
  cases k <;> simp only [Key.flag, h.fdh, h.fw2l, h.fee, h.fg, h.fdyn, h.fdl, h.fK, h.fD, h.fDm, h.fMm]
theorem val (k : Key) {i : ℕ} (hi : k.flag c i = 0) : k.val c' i = k.val c i := by
  cases k <;> first
    | rfl | exact h.dh i hi | exact h.w2l i hi | exact h.ee i hi | exact h.g i hi | exact h.dyn i hi | exact h.dl i hi | exact h.K i hi | exact h.D i hi
    | exact h.Dm i hi | exact h.Mm i hi
theorem here (k : Key) : k.here c' = k.here c := by
  cases k <;> simp only [Key.here, h.elastic, h.dlO]
theorem flags (k : Key) : k.flags c' = k.flags c := by unfold Key.flags; rw [h.size, h.flag]
theorem vars (k : Key) : k.vars c' = k.vars c := by unfold Key.vars Key.idx; rw [h.size, h.flag]
theorem mat (k : Key) : k.mat c' = k.mat c := by
  unfold Key.mat Key.symMat
  rw [h.size, h.flag]
  have e : (fun (i j : ℕ) => if i < k.size c ∧ j = 0 ∧ k.flag c i = 0 then Expr.const (k.val c' i) else (SX.sym k.sym (k.size c)).e i j) =
      fun i j => if i < k.size c ∧ j = 0 ∧ k.flag c i = 0 then Expr.const (k.val c i) else (SX.sym k.sym (k.size c)).e i j := by
    funext i j
    split_ifs with hi
    · rw [h.val k hi.2.2]
    · rfl
  rw [e]
theorem kmod (k : Key) : kmod c' k = kmod c k := by unfold Thunder.kmod; rw [h.here, h.mat]
theorem base : base c' = base c := by
  unfold Thunder.base
  simp only [h.kmod, h.n, h.types]
theorem keySet (ks : List Key) : keySet c' ks = keySet c ks := by unfold Robot.keySet; simp only [h.vars]
theorem valid (f : Fn) : f.Valid c' = f.Valid c := by
  cases f <;> simp only [Fn.Valid, h.n, h.elastic, h.kO, h.dO, h.dmO, h.dlO, h.vars]
theorem expr [Fl] (f : Fn) : f.expr (Thunder.base c') c' = f.expr (Thunder.base c) c := by
  rw [h.base]
  cases f <;> simp only [Fn.expr, h.ne, h.kO, h.dO, h.dmO, h.dlO, h.flags]
theorem reg [Fl] (f : Fn) : f.reg c' = f.reg c := by
  unfold Fn.reg
  rw [h.expr, h.n]
theorem lib [Fl] : Fn.lib c' = Fn.lib c := by
  unfold Fn.lib
  simp only [h.valid, h.reg]
theorem hasReg {g : Robot.Reg} {ks : List Key} (H : HasReg c r g ks) : HasReg c' r g ks where
  keys := by simp only [h.flags]; exact H.keys
  here := by simp only [h.here]; exact H.here
  nodup := by rw [show Key.vars c' = Key.vars c from funext h.vars]; exact H.nodup
  over := by rw [h.keySet]; exact H.over
  model := H.model
  funArgs := H.funArgs
  funs := by rw [show Key.vars c' = Key.vars c from funext h.vars]; exact H.funs
  funDescr := H.funDescr
theorem joints (hj : JointsOk c) : JointsOk c' := by unfold JointsOk; rw [h.n, h.types]; exact hj

end Spec.Retuned

/-! ## Values of the symbols -/

/-- The values of a variable of motion. -/
def Spec.State.at (s : State c) : Key → ℕ → ℝ
  | .q => fun i => if h : i < c.n then s.q ⟨i, h⟩ else 0
  | .dq => fun i => if h : i < c.n then s.dq ⟨i, h⟩ else 0
  | .ddq => fun i => if h : i < c.n then s.ddq ⟨i, h⟩ else 0
  | .d3q => fun i => if h : i < c.n then s.d3q ⟨i, h⟩ else 0
  | .dqr => fun i => if h : i < c.n then s.dqr ⟨i, h⟩ else 0
  | .ddqr => fun i => if h : i < c.n then s.ddqr ⟨i, h⟩ else 0
  | .w => fun i => if h : i < 6 then s.w ⟨i, h⟩ else 0
  | .x => fun i => if h : i < c.ne then s.x ⟨i, h⟩ else 0
  | .dx => fun i => if h : i < c.ne then s.dx ⟨i, h⟩ else 0
  | .ddx => fun i => if h : i < c.ne then s.ddx ⟨i, h⟩ else 0
  | k => k.val c

/-- The values of the symbols. -/
def env (c : Conf) (s : State c) (v : Var) : ℝ := if h : ∃ k : Key, k.sym = v.name then s.at h.choose v.idx else 0

theorem env_key (s : State c) (k : Key) (i : ℕ) : env c s ⟨k.sym, i⟩ = s.at k i := by
  have h : ∃ k' : Key, k'.sym = k.sym := ⟨k, rfl⟩
  unfold env
  rw [dif_pos h]
  simp only
  rw [Key.sym_inj h.choose_spec]

theorem at_par (s : State c) {k : Key} (hk : k.isVar = false) : s.at k = k.val c := by cases k <;> first | rfl | cases hk

theorem env_par (s : State c) {k : Key} (hk : k.isVar = false) (i : ℕ) : env c s ⟨k.sym, i⟩ = k.val c i := by rw [env_key, at_par s hk]

/-- Another value of one of the variables. -/
theorem setV_env {s s' : State c} {k : Key} {m : ℕ} {x : Fin m → ℝ} (h : ∀ k' : Key, k' ≠ k → s'.at k' = s.at k')
    (hx : ∀ i, s'.at k i = if h : i < m then x ⟨i, h⟩ else 0) (h0 : ∀ i, m ≤ i → s.at k i = 0) : setV k.sym (env c s) x = env c s' := by
  funext v
  obtain ⟨nm, i⟩ := v
  by_cases hk : nm = k.sym
  · subst hk
    rw [env_key, hx]
    split_ifs with hi
    · exact setV_self' hi
    · unfold setV
      rw [dif_neg fun hh => hi hh.2, env_key, h0 i (by omega)]
  · rw [setV_ne hk]
    unfold env
    by_cases he : ∃ k' : Key, k'.sym = nm
    · rw [dif_pos he, dif_pos he, h]
      intro e
      exact hk (by rw [← he.choose_spec, e])
    · rw [dif_neg he, dif_neg he]

theorem setV_q (s : State c) (q : Fin c.n → ℝ) : setV "q" (env c s) q = env c { s with q := q } :=
  setV_env (k := .q) (fun k' hk => by cases k' <;> first | rfl | exact absurd rfl hk) (fun _ => rfl) fun i hi => dif_neg (by omega)
theorem setV_dq (s : State c) (q : Fin c.n → ℝ) : setV "dq" (env c s) q = env c { s with dq := q } :=
  setV_env (k := .dq) (fun k' hk => by cases k' <;> first | rfl | exact absurd rfl hk) (fun _ => rfl) fun i hi => dif_neg (by omega)
theorem setV_ddq (s : State c) (q : Fin c.n → ℝ) : setV "ddq" (env c s) q = env c { s with ddq := q } :=
  setV_env (k := .ddq) (fun k' hk => by cases k' <;> first | rfl | exact absurd rfl hk) (fun _ => rfl) fun i hi => dif_neg (by omega)
theorem setV_d3q (s : State c) (q : Fin c.n → ℝ) : setV "d3q" (env c s) q = env c { s with d3q := q } :=
  setV_env (k := .d3q) (fun k' hk => by cases k' <;> first | rfl | exact absurd rfl hk) (fun _ => rfl) fun i hi => dif_neg (by omega)
theorem setV_x (s : State c) (q : Fin c.ne → ℝ) : setV "x" (env c s) q = env c { s with x := q } :=
  setV_env (k := .x) (fun k' hk => by cases k' <;> first | rfl | exact absurd rfl hk) (fun _ => rfl) fun i hi => dif_neg (by omega)
theorem setV_dx (s : State c) (q : Fin c.ne → ℝ) : setV "dx" (env c s) q = env c { s with dx := q } :=
  setV_env (k := .dx) (fun k' hk => by cases k' <;> first | rfl | exact absurd rfl hk) (fun _ => rfl) fun i hi => dif_neg (by omega)

/-! ## What is stored -/

theorem stored_eq {m : ℕ} (v : Fin m → ℝ) (f : ℕ → ℝ) (h : ∀ i : Fin m, f i = v i) : stored v = nums m f := by
  unfold stored nums
  refine List.ext_getElem? fun i => ?_
  by_cases hi : i < m
  · simp [hi, ← h ⟨i, hi⟩]
  · simp [hi]

theorem symbolics_eq {k : Key} {m : ℕ} (hm : k.size c = m) {f : ℕ → ℤ} (hf : k.flag c = f) {v : ℕ → ℝ} (hv : k.val c = v) :
    symbolics m f v = kept c k := by
  subst hm hf hv
  rfl

theorem kept_var {k : Key} (hk : k.isVar = true) (f : ℕ → ℝ) : nums (k.size c) f = (k.vars c).map fun v => some (f v.idx) := by
  unfold nums Key.vars Key.idx
  rw [List.map_map, List.filter_eq_self.2]
  · rfl
  · intro i _
    rw [Key.flag_var hk]
    rfl

variable {s : State c}

/-- The variables. -/
theorem Spec.Holds.var (h : Holds c s r) {k : Key} (hk : k.isVar = true) (hh : k.here c) (h4 : k ≠ .d4q) (hx : k ≠ .ddxr) :
    r.arg k.str = nums (k.size c) (s.at k) := by
  have hd : ∀ {m : ℕ} (v : Fin m → ℝ) (i : Fin m), (if h : (i : ℕ) < m then v ⟨i, h⟩ else 0) = v i := fun v i => dif_pos i.2
  cases k <;> first | contradiction | (cases hk; done) | skip
  · exact h.q.trans (stored_eq _ _ (hd _))
  · exact h.dq.trans (stored_eq _ _ (hd _))
  · exact h.ddq.trans (stored_eq _ _ (hd _))
  · exact h.d3q.trans (stored_eq _ _ (hd _))
  · exact h.dqr.trans (stored_eq _ _ (hd _))
  · exact h.ddqr.trans (stored_eq _ _ (hd _))
  · exact h.w.trans (stored_eq _ _ (hd _))
  · have e : Key.x.size c = c.ne := if_pos hh
    rw [e]
    exact (h.x hh).trans (stored_eq _ _ (hd _))
  · have e : Key.dx.size c = c.ne := if_pos hh
    rw [e]
    exact (h.dx hh).trans (stored_eq _ _ (hd _))
  · have e : Key.ddx.size c = c.ne := if_pos hh
    rw [e]
    exact (h.ddx hh).trans (stored_eq _ _ (hd _))

/-- The parameters. -/
theorem Spec.Holds.par (h : Holds c s r) {k : Key} (hk : k.isVar = false) (hh : k.here c) : r.arg k.str = kept c k := by
  cases k <;> first | (cases hk; done) | skip
  · exact h.DYN.trans (symbolics_eq (k := .DYN) (Nat.mul_comm _ _) rfl rfl)
  · exact (h.Dl hh).trans (symbolics_eq (k := .Dl) rfl rfl rfl)
  · exact (h.K hh).trans (symbolics_eq (k := .K) (if_pos hh) rfl rfl)
  · exact (h.D hh).trans (symbolics_eq (k := .D) (if_pos hh) rfl rfl)
  · exact (h.Dm hh).trans (symbolics_eq (k := .Dm) (if_pos hh) rfl rfl)
  · exact (h.Mm hh).trans (symbolics_eq (k := .Mm) (if_pos hh) rfl rfl)
  · exact h.DH.trans (symbolics_eq (k := .DH) (Nat.mul_comm _ _) rfl rfl)
  · exact h.W2L.trans (symbolics_eq (k := .W2L) rfl rfl rfl)
  · exact h.EE.trans (symbolics_eq (k := .EE) rfl rfl rfl)
  · exact h.grav.trans (symbolics_eq (k := .grav) rfl rfl rfl)

theorem inVals_var (h : Holds c s r) {k : Key} (hk : k.isVar = true) (hh : k.here c) (h4 : k ≠ .d4q) (hx : k ≠ .ddxr) :
    inVals c r k = some ((k.vars c).map fun v => (v, some (env c s v))) := by
  have e : (k.vars c).map (fun v => (some (s.at k v.idx) : Num)) = (k.vars c).map fun v => some (env c s v) := by
    refine List.map_congr_left fun v hv => ?_
    rw [← env_key, ← (Key.mem_vars.1 hv).1]
  unfold inVals
  rw [h.var hk hh h4 hx, kept_var hk, e, fitInput, if_pos (List.length_map _), Option.map_some, List.zip_map_right]
  congr 1
  induction k.vars c with
  | nil => rfl
  | cons a l ih => simp only [List.zip_cons_cons, List.map_cons, ih]; rfl

/-! ## What `get` returns -/

variable [Fl]

theorem live_of {y : Yaml} {c₀ : Conf} (h : Describes y c₀) (hj : JointsOk c₀) (hu : InUse y r) (hc : Retuned c₀ c) (hr : Holds c s r) :
    Live c r (Fn.lib c) := by
  obtain ⟨name, r₀, hist, e, hh, ea⟩ := hu
  obtain ⟨r₁, e₁, hd⟩ := fromFile_ok h hj.1 (typed_of hj) (robotName_of_ok h e)
  obtain rfl : r₁ = r₀ := by rw [e] at e₁; cases e₁; rfl
  have hreg : Robot.Registered r₁ := by
    intro f hf
    obtain ⟨g, hg, rfl⟩ := hd.only f hf
    obtain ⟨ks, H⟩ := hd.reg g hg
    unfold SMap.has
    rw [H.model]
    rfl
  have ho := after_only hreg hh ea
  unfold Only at ho
  have hn : r.n = r₁.n := by rw [ho]
  have hne : r.ne = r₁.ne := by rw [ho]
  have L := hd.live.reg
  refine ⟨by rw [hn, hd.n, hc.n], by rw [hne, hd.ne, hc.ne], fun k hk hh => hr.par hk hh, fun g hg => ?_, fun f hf => ?_⟩
  · rw [hc.lib] at hg
    obtain ⟨ks, H⟩ := hd.reg g hg
    refine ⟨ks, hc.hasReg ⟨H.keys, H.here, H.nodup, H.over, ?_, ?_, ?_, ?_⟩⟩
    · rw [ho]; exact H.model
    · rw [ho]; exact H.funArgs
    · rw [ho]; exact H.funs
    · rw [ho]; exact H.funDescr
  · rw [hc.lib]
    rw [ho] at hf
    exact hd.only f hf

/-- The value of a function of the library. -/
theorem returns_fn (hn : 0 < c.n) (ht : Typed c) (L : Live c r (Fn.lib c)) (hr : Holds c s r) {f : Fn} (hf : f.Valid c) :
    Returns (answers r) f.name (SX.val (env c s) (f.expr (base c) c) (f.rows c) (f.cols c)) := by
  obtain ⟨r', -, e⟩ := L.get hf
  have hrel := Fn.rel_self hn ht hf
  obtain ⟨l, hl⟩ : ∃ l, l = f.sure.map fun k => (k.vars c).map fun v => (v, (some (env c s v) : Num)) := ⟨_, rfl⟩
  have hm : f.sure.mapM (inVals c r) = some l := by
    rw [hl]
    refine mapM_some fun k hk => ?_
    obtain ⟨h1, h2, h3⟩ := Fn.here_keys hf k (List.mem_append_left _ hk)
    exact inVals_var hr (f.sure_var k hk) h1 h2 h3
  rw [hm] at e
  have hmem : ∀ p ∈ l.flatten, p.2 = some (env c s p.1) := by
    intro p hp
    obtain ⟨a, ha, hp⟩ := List.mem_flatten.1 hp
    rw [hl] at ha
    obtain ⟨k, -, rfl⟩ := List.mem_map.1 ha
    obtain ⟨v, -, rfl⟩ := List.mem_map.1 hp
    rfl
  have hev : evalOf (f.expr (base c) c) c l.flatten = (f.expr (base c) c).elements.map fun e => some (e.eval (env c s)) := by
    unfold evalOf
    rw [if_pos fun p hp => by rw [hmem p hp]; simp]
    refine List.map_congr_left fun x hx => ?_
    congr 1
    refine Expr.eval_congr fun v hv => ?_
    obtain ⟨i, -, j, -, rfl⟩ := mem_elements hx
    obtain ⟨k, hk, hvk⟩ := hrel.over i j hv
    unfold envOf
    rcases List.mem_append.1 hk with hk | hk
    · rw [if_neg (not_isPar_vars (f.sure_var k hk) hvk), bound_of_mem (ρ := env c s) hmem]
      · rfl
      · refine ⟨(v, some (env c s v)), List.mem_flatten.2 ⟨_, ?_, (List.mem_map (f := fun v => (v, (some (env c s v) : Num)))).2 ⟨v, hvk, rfl⟩⟩, rfl⟩
        rw [hl]
        exact List.mem_map.2 ⟨k, hk, rfl⟩
    · have hp := f.pos_par c.n k hk
      rw [if_pos (isPar_vars hp hvk)]
      obtain ⟨nm, ix⟩ := v
      have := (Key.mem_vars.1 hvk).1
      simp only at this
      subst this
      rw [fileVal_key, env_par s hp]
  unfold outcome at e
  simp only [hev] at e
  refine ⟨_, ⟨r', e⟩, hrel.rows, hrel.cols, ?_, fun i j => ?_⟩
  · rw [List.length_map, length_elements, hrel.rows, hrel.cols]
  · have := getElem?_elements (A := f.expr (base c) c) (i := i) (j := j) (by rw [hrel.rows]; exact i.2) (by rw [hrel.cols]; exact j.2)
    rw [hrel.rows] at this
    rw [List.getElem?_map, this]
    rfl

end

end Thunder
