import Verif.Spec.TestMain
import Verif.Lemmas.SystemRun
import Verif.Lemmas.RegArg
import Verif.Lemmas.Generated
import Verif.Props.Robot
import Verif.Props.System

/-!
# The program `thunder_test`
-/

open scoped Classical
open Matrix

namespace Thunder

noncomputable section

open Spec Robot Act

/-! ## Eigen arithmetic -/

namespace Test

/-- The entries of `m` are those of `A`. -/
def Is (m : Mat) {a b : ℕ} (A : Matrix (Fin a) (Fin b) ℝ) : Prop :=
  m.rows = a ∧ m.cols = b ∧ m.data.length = a * b ∧ ∀ (i : Fin a) (j : Fin b), m.data[(i : ℕ) + a * j]? = some (some (A i j))

variable {a b d : ℕ}

theorem Is.entry {m : Mat} {A : Matrix (Fin a) (Fin b) ℝ} (h : Is m A) {i j : ℕ} (hi : i < a) (hj : j < b) : m.entry i j = some (A ⟨i, hi⟩ ⟨j, hj⟩) := by
  have := h.2.2.2 ⟨i, hi⟩ ⟨j, hj⟩
  unfold Mat.entry
  rw [h.1, List.getD_eq_getElem?_getD, this]
  rfl

theorem foldl_add {n : ℕ} {f : ℕ → Num} {g : Fin n → ℝ} (h : ∀ i : Fin n, f i = some (g i)) : ((List.range n).map f).foldl Num.add (some 0) = some (∑ i, g i) := by
  induction n with
  | zero => simp
  | succ n ih =>
    rw [List.range_succ, List.map_append, List.foldl_append, ih (g := fun i => g i.castSucc) fun i => h i.castSucc, Fin.sum_univ_castSucc]
    have := h (Fin.last n)
    simp only [Fin.val_last] at this
    simp [this]

theorem mul_is {m m' : Mat} {A : Matrix (Fin a) (Fin b) ℝ} {B : Matrix (Fin b) (Fin d) ℝ} (h : Is m A) (h' : Is m' B) :
    ∃ p, Mat.mul m m' = some p ∧ Is p (A * B) := by
  unfold Mat.mul
  rw [if_pos (h.2.1.trans h'.1.symm)]
  refine ⟨_, rfl, h.1, h'.2.1, ?_, fun i j => ?_⟩
  · simp [h.1, h'.2.1]
  · have hlt : (i : ℕ) + a * j < a * d := by
      have h1 := i.2
      have h2 := j.2
      calc (i : ℕ) + a * j < a + a * j := by omega
        _ = a * (j + 1) := by ring
        _ ≤ a * d := Nat.mul_le_mul_left _ h2
    simp only [h.1, h'.2.1, h.2.1]
    rw [List.getElem?_map, List.getElem?_range hlt, Option.map_some]
    have e1 : ((i : ℕ) + a * j) % a = i := by rw [Nat.add_mul_mod_self_left, Nat.mod_eq_of_lt i.2]
    have e2 : ((i : ℕ) + a * j) / a = j := by
      rw [Nat.add_mul_div_left _ _ (lt_of_le_of_lt (Nat.zero_le _) i.2), Nat.div_eq_of_lt i.2, Nat.zero_add]
    rw [e1, e2, foldl_add (g := fun l => A i l * B l j) fun l => by rw [h.entry i.2 l.2, h'.entry l.2 j.2]; rfl]
    rfl

theorem zip_is {m m' : Mat} {A B : Matrix (Fin a) (Fin b) ℝ} (h : Is m A) (h' : Is m' B) {op : Num → Num → Num} {f : ℝ → ℝ → ℝ}
    (hop : ∀ x y, op (some x) (some y) = some (f x y)) : ∃ p, Mat.zip op m m' = some p ∧ Is p (Matrix.of fun i j => f (A i j) (B i j)) := by
  unfold Mat.zip
  rw [if_pos ⟨h.1.trans h'.1.symm, h.2.1.trans h'.2.1.symm⟩]
  refine ⟨_, rfl, h.1, h.2.1, ?_, fun i j => ?_⟩
  · simp [h.2.2.1, h'.2.2.1]
  · rw [List.getElem?_zipWith, h.2.2.2 i j, h'.2.2.2 i j]
    simp [hop]

theorem col_is {v : List Num} {u : Fin a → ℝ} (hl : v.length = a) (h : ∀ i : Fin a, v[(i : ℕ)]? = some (some (u i))) : Is (.col v) (Matrix.of fun i (_ : Fin 1) => u i) := by
  refine ⟨hl, rfl, by simp [Mat.col, hl], fun i j => ?_⟩
  obtain rfl : j = 0 := Subsingleton.elim _ _
  simpa [Mat.col] using h i

theorem residual_is {M C G Y : Mat} {A B : Matrix (Fin a) (Fin a) ℝ} {g : Fin a → ℝ} {Z : Matrix (Fin a) (Fin b) ℝ} (hM : Is M A) (hC : Is C B)
    (hG : Is G (Matrix.of fun i (_ : Fin 1) => g i)) (hY : Is Y Z) {u v w : List Num} {u' v' : Fin a → ℝ} {w' : Fin b → ℝ}
    (hu : Is (.col u) (Matrix.of fun i (_ : Fin 1) => u' i)) (hv : Is (.col v) (Matrix.of fun i (_ : Fin 1) => v' i))
    (hw : Is (.col w) (Matrix.of fun i (_ : Fin 1) => w' i)) :
    ∃ e, residual M C G Y u v w = some e ∧ Is e (Matrix.of fun i (_ : Fin 1) => (A *ᵥ u' + B *ᵥ v' + g - Z *ᵥ w') i) := by
  obtain ⟨p1, e1, h1⟩ := mul_is hM hu
  obtain ⟨p2, e2, h2⟩ := mul_is hC hv
  obtain ⟨p3, e3, h3⟩ := zip_is h1 h2 (op := Num.add) (f := (· + ·)) fun _ _ => rfl
  obtain ⟨p4, e4, h4⟩ := zip_is h3 hG (op := Num.add) (f := (· + ·)) fun _ _ => rfl
  obtain ⟨p5, e5, h5⟩ := mul_is hY hw
  obtain ⟨p6, e6, h6⟩ := zip_is h4 h5 (op := Num.sub) (f := (· - ·)) fun _ _ => rfl
  refine ⟨p6, ?_, ?_⟩
  · unfold residual
    simp only [Option.bind_eq_bind, e1, e2, e3, e4, e5, e6, Option.bind_some]
  · convert h6 using 1
    ext i j
    simp [Matrix.mul_apply, Matrix.mulVec, dotProduct]

/-- The transpose of a column is the row. -/
theorem tr_col (v : List Num) : (Mat.col v).tr = printRow v := by
  have : ((List.range (v.length * 1)).map fun k => (Mat.col v).entry (k / 1) (k % 1)) = v := by
    refine List.ext_getElem (by simp) fun i h1 h2 => ?_
    simp [Mat.entry, Mat.col, Nat.mod_one, List.getD_eq_getElem?_getD, h2]
  exact congrArg (Mat.mk 1 v.length) this

end Test

/-! ## Robots in use -/

section

variable [Fl] {y : Yaml} {c : Conf} {s : State c} {r r' : Robot}

omit [Fl] in
theorem run_obs {α : Type} {f : α → Obs} {a : Act Robot α} {v : α} (e : a r = .ok v r') : obs f a r = .ok (f v) r' := by
  unfold obs
  rw [bind_ok e]
  rfl

theorem inUse_step (h : InUse y r) {x : RCall} (hx : Use x) {o : Obs} (e : x.run r = .ok o r') : InUse y r' := by
  obtain ⟨name, r₀, hist, e₀, hh, ea⟩ := h
  refine ⟨name, r₀, hist ++ [x], e₀, fun z hz => ?_, ?_⟩
  · rcases List.mem_append.1 hz with hz | hz
    · exact hh z hz
    · rw [List.mem_singleton.1 hz]; exact hx
  · rw [Wrap.after_append, ea]
    show after [x] r = _
    unfold after
    rw [e]
    rfl

omit [Fl] in
theorem holds_sim (h : Holds c s r) (e : Sim r r') : Holds c s r' := by
  cases h
  constructor <;> (simp only [← e.arg]; assumption)

theorem running_sim (h : Running y c s r) {x : RCall} (hx : Use x) {o : Obs} (e : x.run r = .ok o r') (hs : Sim r r') : Running y c s r' :=
  ⟨h.file, inUse_step h.use hx e, holds_sim h.args hs⟩

/-- `m` is what `get` answers in the state `s`. -/
def Says (y : Yaml) (c : Conf) (s : State c) (f : String) (m : Mat) : Prop := ∃ r, Running y c s r ∧ answers r f m

/-- `get` answers for every name, and the robot remains in use. -/
theorem running_get (h : Running y c s r) (f : String) : ∃ m r', Robot.get f r = .ok m r' ∧ Says y c s f m ∧ Running y c s r' ∧ Sim r r' := by
  obtain ⟨c₀, hd, hj, hc⟩ := h.file
  have hjc := hc.joints hj
  have L := live_of hd hj h.use hc h.args
  cases hf : r.funArgs.has f with
  | false =>
    have e := C53_unknown r f hf
    exact ⟨_, r, e, ⟨r, h, r, e⟩, h, Sim.refl r⟩
  | true =>
    obtain ⟨g, ⟨F, hv, rfl⟩, rfl⟩ := L.only f hf
    obtain ⟨m, ⟨r₁, e₁⟩, -⟩ := returns_fn hjc.1 (typed_of hjc) L h.args hv
    obtain ⟨r₂, hs, e₂⟩ := L.get hv
    have e₁' : Robot.get (F.reg c).name r = .ok m r₁ := e₁
    have hs' : Sim r r₁ := by
      rw [e₁] at e₂
      unfold outcome at e₂
      split at e₂
      · cases e₂
      · obtain rfl := (Res.ok.inj e₂).2; exact hs
    exact ⟨m, r₁, e₁, ⟨r, h, r₁, e₁⟩, running_sim h (x := .get (F.reg c).name) trivial (run_obs e₁) hs', hs'⟩

/-- What is said is what the mechanism gives. -/
theorem Says.is {f : String} {m : Mat} (h : Says y c s f m) {a b : ℕ} {A : Matrix (Fin a) (Fin b) ℝ}
    (hA : ∀ R, Source y c s R → Returns R f A) : Test.Is m A := by
  obtain ⟨r, hr, r₁, e₁⟩ := h
  obtain ⟨m', ⟨r₂, e₂⟩, h1, h2, h3, h4⟩ := hA _ (.robot hr)
  rw [e₁] at e₂
  obtain rfl := (Res.ok.inj e₂).1
  exact ⟨h1, h2, h3, h4⟩

/-- The name of an argument is not the name of a function. -/
theorem Says.key {k : Key} {m : Mat} (h : Says y c s k.str m) : m = ⟨1, 1, [some 0]⟩ := by
  obtain ⟨r, hr, r₁, e₁⟩ := h
  obtain ⟨c₀, hd, hj, hc⟩ := hr.file
  have L := live_of hd hj hr.use hc hr.args
  have : r.funArgs.has k.str = false := by
    by_contra hn
    obtain ⟨g, ⟨F, hv, rfl⟩, e⟩ := L.only _ (by simpa using hn)
    exact F.name_ne k e
  have e₁' : Robot.get k.str r = .ok m r₁ := e₁
  rw [C53_unknown r k.str this] at e₁'
  exact (Res.ok.inj e₁').1.symm

/-- Functions that do not exist. -/
theorem Says.unknown {f : String} {m : Mat} (h : Says y c s f m) (hf : f ∉ library c) : m = ⟨1, 1, [some 0]⟩ := by
  obtain ⟨r, hr, r₁, e₁⟩ := h
  obtain ⟨c₀, hd, hj, hc⟩ := hr.file
  have L := live_of hd hj hr.use hc hr.args
  have : r.funArgs.has f = false := by
    by_contra hn
    obtain ⟨g, ⟨F, hv, rfl⟩, rfl⟩ := L.only f (by simpa using hn)
    exact hf (Fn.mem_library_of hv)
  rw [C53_unknown r f this] at e₁
  exact (Res.ok.inj e₁).1.symm

theorem prints_ok : ∀ (l : List (String × String)) {r : Robot}, Running y c s r → ∃ out r', Test.prints l r = .ok out r' ∧ Running y c s r' ∧ Sim r r' ∧
    out.map Prod.fst = l.map Prod.fst ∧ ∀ p ∈ l, ∃ m, (p.1, m) ∈ out ∧ Says y c s p.2 m
  | [], r, h => ⟨[], r, rfl, h, Sim.refl r, rfl, fun _ h => nomatch h⟩
  | (a, f) :: l, r, h => by
    obtain ⟨m, r₁, e₁, hm, h₁, s₁⟩ := running_get h f
    obtain ⟨out, r₂, e₂, h₂, s₂, hl, ho⟩ := prints_ok l h₁
    refine ⟨(a, m) :: out, r₂, ?_, h₂, s₁.trans s₂, by simp [hl], fun p hp => ?_⟩
    · unfold Test.prints
      rw [bind_ok e₁, bind_ok e₂]
      rfl
    · rcases List.mem_cons.1 hp with rfl | hp
      · exact ⟨m, List.mem_cons_self, hm⟩
      · obtain ⟨m', h1, h2⟩ := ho p hp
        exact ⟨m', List.mem_cons_of_mem _ h1, h2⟩

omit [Fl] in
theorem getArg_run (k : String) (r : Robot) : getArg k r = .ok (r.arg k) (r.touchArg k) := by
  unfold getArg
  rw [bind_ok (modify_run _ _), bind_ok (read_run _), arg_touch]
  rfl

theorem running_touch (h : Running y c s r) (k : String) : Running y c s (r.touchArg k) :=
  running_sim h (x := .getArg k) trivial (run_obs (getArg_run k r)) (sim_touch r k)

omit [Fl] in
theorem setVar_ok {f : VarName} {v : List Num} (h : (r.arg f.key).length = f.size r) (hv : v.length = f.size r) : setVar f v r = .ok 1 (r.setArgs f.key v) := by
  unfold setVar
  rw [bind_ok (read_run _)]
  exact setSized_ok h hv

theorem inUse_set (h : InUse y r) {f : VarName} {v : List Num} (hl : (r.arg f.key).length = f.size r) (hv : v.length = f.size r) : InUse y (r.setArgs f.key v) :=
  inUse_step h (x := .setVar f v) trivial (run_obs (setVar_ok hl hv))

theorem pars_ok (hr : Running y c s r) (hd : Done c r (Fn.lib c)) (hreg : (r.arg "par_REG").length = 10 * c.n) :
    ∃ r', Test.pars r = .ok (r.arg "par_REG", [("par_DHtable", ⟨1, 1, [some 0]⟩), ("par_DYN", printRow (symbolics (10 * c.n) c.fdyn c.dyn ++
        List.replicate (10 * c.n - (symbolics (10 * c.n) c.fdyn c.dyn).length) none)), ("par_REG", printRow (r.arg "par_REG")), ("par_Dl", printRow (r.arg "par_Dl")),
        ("par_K", printRow (r.arg "par_K")), ("par_D", printRow (r.arg "par_D")), ("par_Dm", printRow (r.arg "par_Dm")), ("par_Mm", printRow (r.arg "par_Mm"))]) r' ∧
      Running y c s r' ∧ Sim r r' := by
  have hn : r.n = c.n := hd.n
  have e1 : getParREG r = .ok (r.arg "par_REG") (r.touchArg "par_REG") := getPar10_ok (by rw [hreg, hn])
  obtain ⟨r₁, hr₁⟩ : ∃ r₁, r₁ = r.touchArg "par_REG" := ⟨_, rfl⟩
  have s1 : Sim r r₁ := hr₁ ▸ sim_touch r _
  have h1 : Running y c s r₁ := hr₁ ▸ running_touch hr _
  have hlen : (symbolics (10 * c.n) c.fdyn c.dyn).length ≤ 10 * c.n := by
    unfold symbolics
    rw [List.length_map]
    exact (List.length_filter_le _ _).trans (by rw [List.length_range])
  have e2 : getParDYN r₁ = .ok _ (r₁.touchArg "par_DYN") := getPar10_run (v := symbolics (10 * c.n) c.fdyn c.dyn ++
    List.replicate (10 * c.n - (symbolics (10 * c.n) c.fdyn c.dyn).length) none) _ _ (by
      rw [h1.args.DYN, s1.n, hn, Robot.fill, if_pos hlen])
  obtain ⟨r₂, hr₂⟩ : ∃ r₂, r₂ = r₁.touchArg "par_DYN" := ⟨_, rfl⟩
  have s2 : Sim r r₂ := hr₂ ▸ s1.trans (sim_touch r₁ _)
  have h2 : Running y c s r₂ := hr₂ ▸ running_touch h1 _
  have step : ∀ {r₂ : Robot} (k : String), Running y c s r₂ → Sim r r₂ → ∃ r₃, getArg k r₂ = .ok (r.arg k) r₃ ∧ Running y c s r₃ ∧ Sim r r₃ := by
    intro r₂ k h2 s2
    exact ⟨_, by rw [getArg_run, s2.arg], running_touch h2 k, s2.trans (sim_touch _ _)⟩
  obtain ⟨r₃, e3, h3, s3⟩ := step "par_Dl" h2 s2
  obtain ⟨r₄, e4, h4, s4⟩ := step "par_K" h3 s3
  obtain ⟨r₅, e5, h5, s5⟩ := step "par_D" h4 s4
  obtain ⟨r₆, e6, h6, s6⟩ := step "par_Dm" h5 s5
  obtain ⟨r₇, e7, h7, s7⟩ := step "par_Mm" h6 s6
  obtain ⟨m, r₈, e8, hm, h8, s8⟩ := running_get h7 "par_DHtable"
  obtain rfl := Says.key (k := .DH) hm
  refine ⟨r₈, ?_, h8, s7.trans s8⟩
  unfold Test.pars
  rw [bind_ok e1, ← hr₁, bind_ok e2, ← hr₂, bind_ok e3, bind_ok e4, bind_ok e5, bind_ok e6, bind_ok e7, bind_ok e8]
  simp only [Test.tr_col]
  rfl

omit [Fl] in
theorem stored_const {k : ℕ} (x : ℝ) : stored (fun _ : Fin k => x) = List.replicate k (some x) := by
  unfold stored
  exact List.ofFn_const _ _

/-- A robot in use whose variables have the sizes the setters expect. -/
structure Ready (y : Yaml) (c : Conf) (r : Robot) : Prop where
  use : InUse y r
  n : r.n = c.n
  ne : r.ne = c.ne
  len : ∀ f : VarName, f ≠ .ddxr → (r.arg f.key).length = f.size r

theorem Ready.set (h : Ready y c r) {f : VarName} (hf : f ≠ .ddxr) {v : List Num} (hv : v.length = f.size r) (h' : r' = r.setArgs f.key v) :
    setVar f v r = .ok 1 r' ∧ Ready y c r' := by
  subst h'
  refine ⟨setVar_ok (h.len f hf) hv, inUse_set h.use (h.len f hf) hv, h.n, h.ne, fun g hg => ?_⟩
  rw [arg_setArgs]
  split_ifs with e
  · have : f = g := by cases f <;> cases g <;> first | rfl | exact absurd e (by decide)
    subst this
    exact hv.trans (by cases f <;> rfl)
  · exact (h.len g hg).trans (by cases g <;> rfl)

theorem setAll_ok (hr : Running y c ⟨0, 0, 0, 0, 0, 0, 0, 0, 0, 0⟩ r) (hd : Ready y c r) {r₀ : Robot} (h0 : r₀.n = c.n) (h0e : r₀.ne = c.ne) :
    ∃ r', Test.setAll r₀ r = .ok () r' ∧ Running y c (testState c) r' ∧ ArgsOnly r r' := by
  have hr' := hr.args
  obtain ⟨a, ha⟩ : ∃ a, a = r.setArgs "q" (List.replicate c.n (some 1)) := ⟨_, rfl⟩
  obtain ⟨b, hb⟩ : ∃ b, b = a.setArgs "dq" (List.replicate c.n (some 0)) := ⟨_, rfl⟩
  obtain ⟨d, hd'⟩ : ∃ d, d = b.setArgs "dqr" (List.replicate c.n (some 0)) := ⟨_, rfl⟩
  obtain ⟨e, he⟩ : ∃ e, e = d.setArgs "ddqr" (List.replicate c.n (some 0)) := ⟨_, rfl⟩
  obtain ⟨f, hf⟩ : ∃ f, f = e.setArgs "x" (List.replicate c.ne (some 0)) := ⟨_, rfl⟩
  obtain ⟨g, hg⟩ : ∃ g, g = f.setArgs "dx" (List.replicate c.ne (some 0)) := ⟨_, rfl⟩
  obtain ⟨k, hk⟩ : ∃ k, k = g.setArgs "ddx" (List.replicate c.ne (some 0)) := ⟨_, rfl⟩
  have ka : ∀ z, k.arg z = if "ddx" = z then List.replicate c.ne (some 0) else if "dx" = z then List.replicate c.ne (some 0) else
      if "x" = z then List.replicate c.ne (some 0) else if "ddqr" = z then List.replicate c.n (some 0) else if "dqr" = z then List.replicate c.n (some 0) else
      if "dq" = z then List.replicate c.n (some 0) else if "q" = z then List.replicate c.n (some 1) else r.arg z := by
    intro z
    rw [hk, hg, hf, he, hd', hb, ha]
    simp only [arg_setArgs]
  have keq : ArgsOnly r k :=
    (((((((ha ▸ argsOnly_set _ _ _ : ArgsOnly r a).trans (hb ▸ argsOnly_set _ _ _ : ArgsOnly a b)).trans (hd' ▸ argsOnly_set _ _ _ : ArgsOnly b d)).trans
      (he ▸ argsOnly_set _ _ _ : ArgsOnly d e)).trans (hf ▸ argsOnly_set _ _ _ : ArgsOnly e f)).trans (hg ▸ argsOnly_set _ _ _ : ArgsOnly f g)).trans
      (hk ▸ argsOnly_set _ _ _ : ArgsOnly g k))
  obtain ⟨e1, u1⟩ := hd.set (f := .q) (by decide) (v := List.replicate c.n (some 1)) (by rw [List.length_replicate]; exact hd.n.symm) ha
  obtain ⟨e2, u2⟩ := u1.set (f := .dq) (by decide) (v := List.replicate c.n (some 0)) (by rw [List.length_replicate]; exact u1.n.symm) hb
  obtain ⟨e3, u3⟩ := u2.set (f := .dqr) (by decide) (v := List.replicate c.n (some 0)) (by rw [List.length_replicate]; exact u2.n.symm) hd'
  obtain ⟨e4, u4⟩ := u3.set (f := .ddqr) (by decide) (v := List.replicate c.n (some 0)) (by rw [List.length_replicate]; exact u3.n.symm) he
  obtain ⟨e5, u5⟩ := u4.set (f := .x) (by decide) (v := List.replicate c.ne (some 0)) (by rw [List.length_replicate]; exact u4.ne.symm) hf
  obtain ⟨e6, u6⟩ := u5.set (f := .dx) (by decide) (v := List.replicate c.ne (some 0)) (by rw [List.length_replicate]; exact u5.ne.symm) hg
  obtain ⟨e7, u7⟩ := u6.set (f := .ddx) (by decide) (v := List.replicate c.ne (some 0)) (by rw [List.length_replicate]; exact u6.ne.symm) hk
  clear ha hb hd' he hf hg hk
  refine ⟨k, ?_, ⟨hr.file, u7.use, ?_⟩, keq⟩
  · unfold Test.setAll
    rw [h0, h0e, bind_ok e1, bind_ok e2, bind_ok e3, bind_ok e4, bind_ok e5, bind_ok e6, bind_ok e7]
    rfl
  · have z : ∀ m, stored (0 : Fin m → ℝ) = List.replicate m (some 0) := fun m => stored_const 0
    have o : stored (testState c).q = List.replicate c.n (some 1) := stored_const 1
    have zs : (testState c).dq = 0 ∧ (testState c).ddq = 0 ∧ (testState c).d3q = 0 ∧ (testState c).dqr = 0 ∧ (testState c).ddqr = 0 ∧ (testState c).w = 0 ∧
      (testState c).x = 0 ∧ (testState c).dx = 0 ∧ (testState c).ddx = 0 := ⟨rfl, rfl, rfl, rfl, rfl, rfl, rfl, rfl, rfl⟩
    obtain ⟨z1, z2, z3, z4, z5, z6, z7, z8, z9⟩ := zs
    constructor
    · rw [ka, o]; rfl
    · rw [ka, z1, z]; rfl
    · rw [ka, z2]; exact hr'.ddq
    · rw [ka, z3]; exact hr'.d3q
    · rw [ka, z4, z]; rfl
    · rw [ka, z5, z]; rfl
    · rw [ka, z6]; exact hr'.w
    · rw [ka]; exact hr'.DH
    · rw [ka]; exact hr'.W2L
    · rw [ka]; exact hr'.EE
    · rw [ka]; exact hr'.grav
    · rw [ka]; exact hr'.DYN
    · rw [ka]; exact hr'.Dl
    · intro _; rw [ka, z7, z]; rfl
    · intro _; rw [ka, z8, z]; rfl
    · intro _; rw [ka, z9, z]; rfl
    · rw [ka]; exact hr'.K
    · rw [ka]; exact hr'.D
    · rw [ka]; exact hr'.Dm
    · rw [ka]; exact hr'.Mm

/-- What is printed for a file, before the meaning of the answers is used. -/
structure Ran (y : Yaml) (c : Conf) (r : Robot) (out : List (String × Mat)) : Prop where
  heads : out.map Prod.fst = headings c
  dh : shows out "par_DHtable" ⟨1, 1, [some 0]⟩
  dyn : shows out "par_DYN" (printRow (symbolics (10 * c.n) c.fdyn c.dyn ++ List.replicate (10 * c.n - (symbolics (10 * c.n) c.fdyn c.dyn).length) none))
  pars : ∀ k ∈ ["par_REG", "par_Dl", "par_K", "par_D", "par_Dm", "par_Mm"], shows out k (printRow (r.arg k))
  funs : ∀ p ∈ answersOf c, ∃ m, shows out p.1 m ∧ Says y c (testState c) p.2 m
  err : ∃ M C G Y e, Says y c (testState c) "M" M ∧ Says y c (testState c) "C" C ∧ Says y c (testState c) "G" G ∧ Says y c (testState c) "Yr" Y ∧
    Test.residual M C G Y (List.replicate c.n (some 0)) (List.replicate c.n (some 0)) (r.arg "par_REG") = some e ∧ shows out "err_dyn_reg" e

theorem links_ok {r₀ : Robot} (hd : Fixed c r₀) (h : Running y c s r) : ∃ out r', Test.links r₀ r = .ok out r' ∧ Running y c s r' ∧
    out.map Prod.fst = (if 0 < c.dlO then ["D_link", "reg_Dl"] else []) ∧
    ∀ p ∈ (if 0 < c.dlO then [("D_link", "dl"), ("reg_Dl", "reg_dl")] else []), ∃ m, (p.1, m) ∈ out ∧ Says y c s p.2 m := by
  unfold Test.links
  by_cases h0 : 0 < c.dlO
  · rw [if_pos h0, if_pos h0, if_pos (by rw [hd.dlI]; omega)]
    obtain ⟨out, r', e, h1, -, h2, h3⟩ := prints_ok [("D_link", "dl"), ("reg_Dl", "reg_dl")] h
    exact ⟨out, r', e, h1, h2, h3⟩
  · rw [if_neg h0, if_neg h0, if_neg (by rw [hd.dlI]; omega)]
    exact ⟨[], r, rfl, h, rfl, fun _ h => nomatch h⟩

theorem motors_ok {r₀ : Robot} (hd : Fixed c r₀) (h : Running y c s r) : ∃ out r', Test.motors r₀ r = .ok out r' ∧ Running y c s r' ∧
    out.map Prod.fst = (if c.elastic then ["K", "D_coupling", "D_motor", "M_motor", "reg_K", "reg_Dm", "reg_D", "reg_Mm"] else []) ∧
    ∀ p ∈ (if c.elastic then [("K", "k"), ("D_coupling", "d"), ("D_motor", "dm"), ("M_motor", "Mm"), ("reg_K", "reg_k"), ("reg_Dm", "reg_dm"), ("reg_D", "reg_d"),
      ("reg_Mm", "reg_Mm")] else []), ∃ m, (p.1, m) ∈ out ∧ Says y c s p.2 m := by
  unfold Test.motors
  rw [hd.elastic]
  by_cases h0 : c.elastic = true
  · rw [if_pos h0, if_pos h0, if_pos h0]
    obtain ⟨out, r₁, e₁, h₁, -, hl, ho⟩ := prints_ok [("K", "k"), ("D_coupling", "d"), ("D_motor", "dm"), ("M_motor", "Mm")] h
    obtain ⟨k, r₂, e₂, a₂, h₂, -⟩ := running_get h₁ "reg_k"
    obtain ⟨d, r₃, e₃, a₃, h₃, -⟩ := running_get h₂ "reg_d"
    obtain ⟨dm, r₄, e₄, a₄, h₄, -⟩ := running_get h₃ "reg_dm"
    obtain ⟨mm, r₅, e₅, a₅, h₅, -⟩ := running_get h₄ "reg_Mm"
    refine ⟨out ++ [("reg_K", k), ("reg_Dm", dm), ("reg_D", d), ("reg_Mm", mm)], r₅, ?_, h₅, ?_, fun p hp => ?_⟩
    · rw [bind_ok e₁, bind_ok e₂, bind_ok e₃, bind_ok e₄, bind_ok e₅]
      rfl
    · rw [List.map_append, hl]; rfl
    · rcases List.mem_append.1 (show p ∈ [("K", "k"), ("D_coupling", "d"), ("D_motor", "dm"), ("M_motor", "Mm")] ++ [("reg_K", "reg_k"), ("reg_Dm", "reg_dm"),
        ("reg_D", "reg_d"), ("reg_Mm", "reg_Mm")] from hp) with hp | hp
      · obtain ⟨m, g1, g2⟩ := ho p hp
        exact ⟨m, List.mem_append_left _ g1, g2⟩
      · simp only [List.mem_cons, List.not_mem_nil, or_false] at hp
        rcases hp with rfl | rfl | rfl | rfl
        · exact ⟨k, by simp, a₂⟩
        · exact ⟨dm, by simp, a₄⟩
        · exact ⟨d, by simp, a₃⟩
        · exact ⟨mm, by simp, a₅⟩
  · rw [if_neg h0, if_neg h0, if_neg h0]
    exact ⟨[], r, rfl, h, rfl, fun _ h => nomatch h⟩

omit [Fl] in
theorem zero_is (k : ℕ) : Test.Is (.col (List.replicate k (some 0))) (Matrix.of fun (_ : Fin k) (_ : Fin 1) => (0 : ℝ)) :=
  Test.col_is (u := fun _ => 0) (List.length_replicate ..) fun i => by rw [List.getElem?_replicate, if_pos i.2]

omit [Fl] in
/-- The entries of `par_REG`. -/
theorem reg_is {v : List Num} (hl : v.length = 10 * c.n) (h : ∀ i < c.n, ∀ k < 10, v.getD (10 * i + k) none = some (linearOf c i k)) :
    (∀ i : Fin (10 * c.n), v[(i : ℕ)]? = some (some (reg c.dyn i))) ∧ Test.Is (.col v) (Matrix.of fun (i : Fin (10 * c.n)) (_ : Fin 1) => reg c.dyn i) := by
  have h1 : ∀ i : Fin (10 * c.n), v[(i : ℕ)]? = some (some (reg c.dyn i)) := by
    intro i
    have hi := i.2
    have := h (i / 10) (by omega) (i % 10) (by omega)
    rw [Nat.div_add_mod, List.getD_eq_getElem?_getD] at this
    rw [List.getElem?_eq_getElem (by omega)] at this ⊢
    exact congrArg some this
  exact ⟨h1, Test.col_is hl h1⟩

theorem body_ok (hr : Running y c ⟨0, 0, 0, 0, 0, 0, 0, 0, 0, 0⟩ r) (hd : Done c r (Fn.lib c)) (hu : Ready y c r) (hl : (r.arg "par_REG").length = 10 * c.n)
    (hreg : ∀ i < c.n, ∀ k < 10, (r.arg "par_REG").getD (10 * i + k) none = some (linearOf c i k)) :
    ∃ out r', Test.body r = .ok out r' ∧ Ran y c r out := by
  obtain ⟨r₁, e₁, h₁, s₁⟩ := pars_ok hr hd hl
  have hu₁ : Ready y c r₁ := ⟨h₁.use, by rw [s₁.n, hu.n], by rw [s₁.ne, hu.ne], fun f hf => by
    rw [← s₁.arg, hu.len f hf]
    cases f <;> simp only [VarName.size, s₁.n, s₁.ne]⟩
  obtain ⟨r₂, e₂, h₂, -⟩ := setAll_ok h₁ hu₁ hu.n hu.ne
  obtain ⟨kin, r₃, e₃, h₃, -, kl, ko⟩ := prints_ok Test.poses h₂
  obtain ⟨M, r₄, e₄, a₄, h₄, -⟩ := running_get h₃ "M"
  obtain ⟨C, r₅, e₅, a₅, h₅, -⟩ := running_get h₄ "C"
  obtain ⟨Cs, r₆, e₆, a₆, h₆, -⟩ := running_get h₅ "C_std"
  obtain ⟨G, r₇, e₇, a₇, h₇, -⟩ := running_get h₆ "G"
  obtain ⟨dl, r₈, e₈, h₈, dll, dlo⟩ := links_ok hd.toFixed h₇
  obtain ⟨el, r₉, e₉, h₉, ell, elo⟩ := motors_ok hd.toFixed h₈
  obtain ⟨Y, ra, ea, aa, ha, -⟩ := running_get h₉ "Yr"
  obtain ⟨YM, rb, eb, ab, hb, -⟩ := running_get ha "reg_M"
  obtain ⟨YC, rc, ec, ac, hc, -⟩ := running_get hb "reg_C"
  obtain ⟨YG, re, ee, ae, he, -⟩ := running_get hc "reg_G"
  have hM := a₄.is fun R h => h.gives .M trivial (by decide) rfl rfl rfl
  have hC := a₅.is fun R h => h.gives .C trivial (by decide) rfl rfl rfl
  have hG := a₇.is fun R h => h.givesVec .G trivial (by decide) rfl rfl rfl
  have hY := aa.is fun R h => h.gives .Yr trivial (by decide) rfl rfl rfl
  obtain ⟨x, hx, -⟩ := Test.residual_is hM hC hG hY (zero_is _) (zero_is _) (reg_is hl hreg).2
  have hx : Test.residual M C G Y (List.replicate c.n (some 0)) (List.replicate c.n (some 0)) (r.arg "par_REG") = some x := hx
  have hn := hd.n
  obtain ⟨p, hp⟩ : ∃ p : List (String × Mat), p = [("par_DHtable", ⟨1, 1, [some 0]⟩), ("par_DYN", printRow (symbolics (10 * c.n) c.fdyn c.dyn ++
      List.replicate (10 * c.n - (symbolics (10 * c.n) c.fdyn c.dyn).length) none)), ("par_REG", printRow (r.arg "par_REG")), ("par_Dl", printRow (r.arg "par_Dl")),
      ("par_K", printRow (r.arg "par_K")), ("par_D", printRow (r.arg "par_D")), ("par_Dm", printRow (r.arg "par_Dm")), ("par_Mm", printRow (r.arg "par_Mm"))] := ⟨_, rfl⟩
  rw [← hp] at e₁
  refine ⟨p ++ kin ++ [("M", M), ("C", C), ("C_std", Cs), ("G", G)] ++ dl ++ el ++ [("err_dyn_reg", x)], re, ?_, ?_⟩
  · unfold Test.body
    rw [bind_ok (read_run _), bind_ok e₁]
    dsimp only
    rw [bind_ok e₂, bind_ok e₃, bind_ok e₄, bind_ok e₅, bind_ok e₆, bind_ok e₇, bind_ok e₈, bind_ok e₉, bind_ok ea, bind_ok eb, bind_ok ec, bind_ok ee, hn]
    refine bind_ok (a := x) ?_
    rw [hx]
    rfl
  · have hin : ∀ z ∈ p, z ∈ p ++ kin ++ [("M", M), ("C", C), ("C_std", Cs), ("G", G)] ++ dl ++ el ++ [("err_dyn_reg", x)] := fun z hz => by
      simp only [List.mem_append]
      exact .inl (.inl (.inl (.inl (.inl hz))))
    refine ⟨?_, hin _ (by rw [hp]; simp), hin _ (by rw [hp]; simp), fun k hk => hin _ ?_, fun f hf => ?_, M, C, G, Y, x, a₄, a₅, a₇, aa, hx, by simp [shows]⟩
    · simp only [List.map_append, kl, dll, ell, hp]
      rfl
    · simp only [List.mem_cons, List.not_mem_nil, or_false] at hk
      rcases hk with rfl | rfl | rfl | rfl | rfl | rfl <;> rw [hp] <;> simp
    · rcases List.mem_append.1 hf with hf | hf
      · rcases List.mem_append.1 hf with hf | hf
        · rcases List.mem_append.1 (show f ∈ Test.poses ++ [("M", "M"), ("C", "C"), ("C_std", "C_std"), ("G", "G")] from hf) with hf | hf
          · obtain ⟨m, g1, g2⟩ := ko f hf
            refine ⟨m, ?_, g2⟩
            unfold shows
            simp only [List.mem_append]
            exact .inl (.inl (.inl (.inl (.inr g1))))
          · simp only [List.mem_cons, List.not_mem_nil, or_false] at hf
            rcases hf with rfl | rfl | rfl | rfl
            · exact ⟨M, by simp [shows], a₄⟩
            · exact ⟨C, by simp [shows], a₅⟩
            · exact ⟨Cs, by simp [shows], a₆⟩
            · exact ⟨G, by simp [shows], a₇⟩
        · obtain ⟨m, g1, g2⟩ := dlo f hf
          refine ⟨m, ?_, g2⟩
          unfold shows
          simp only [List.mem_append]
          exact .inl (.inl (.inr g1))
      · obtain ⟨m, g1, g2⟩ := elo f hf
        refine ⟨m, ?_, g2⟩
        unfold shows
        simp only [List.mem_append]
        exact .inl (.inr g1)

/-- The robot built by the program. -/
theorem test_robot (h : Describes y c) (hj : JointsOk c) : ∃ r, robotFromFile "testRobot" (some y) true = .ok r ∧ Done c r (Fn.lib c) ∧
    Running y c ⟨0, 0, 0, 0, 0, 0, 0, 0, 0, 0⟩ r ∧ (r.arg "par_REG").length = 10 * c.n ∧
    ∀ i < c.n, ∀ k < 10, (r.arg "par_REG").getD (10 * i + k) none = some (linearOf c i k) := by
  have hnm : RobotName "testRobot" := robotName_of_check (f := "M") (by decide +kernel)
  obtain ⟨r, e, hr⟩ := C56_start h hj hnm
  obtain ⟨r', e', hd⟩ := fromFile_ok h hj.1 (typed_of hj) hnm
  rw [e] at e'
  obtain rfl : r = r' := by cases e'; rfl
  have := reg_values (us := []) h hj.1 (typed_of hj) (fun u hu => nomatch hu) (name := "testRobot") (r := r) (by rw [← e]; rfl)
  exact ⟨r, e, hd, hr, this⟩

theorem length_var {r : Robot} (hd : Done c r (Fn.lib c)) {k : Key} (hk : k.isVar = true) : (r.arg k.str).length = k.size c := by
  rw [hd.arg, length_kept]
  unfold Key.idx
  rw [List.filter_eq_self.2 fun i _ => by rw [Key.flag_var hk]; rfl, List.length_range]

theorem test_ready (h : Done c r (Fn.lib c)) (hr : Running y c s r) (hx : c.elastic = true ∨ c.ne = 0) : Ready y c r := by
  have hz : ∀ {m : ℕ}, (c.elastic = true → m = c.ne) → (¬ c.elastic = true → m = 0) → m = c.ne := by
    intro m h1 h2
    rcases hx with he | he
    · exact h1 he
    · by_cases h' : c.elastic = true
      · exact h1 h'
      · rw [h2 h', he]
  refine ⟨hr.use, h.n, h.ne, fun f hf => ?_⟩
  cases f with
  | q => exact (length_var h (k := .q) rfl).trans h.n.symm
  | dq => exact (length_var h (k := .dq) rfl).trans h.n.symm
  | dqr => exact (length_var h (k := .dqr) rfl).trans h.n.symm
  | ddqr => exact (length_var h (k := .ddqr) rfl).trans h.n.symm
  | x => exact ((length_var h (k := .x) rfl).trans (hz size_x fun h' => by simp [Key.size, h'])).trans h.ne.symm
  | dx => exact ((length_var h (k := .dx) rfl).trans (hz size_dx fun h' => by simp [Key.size, h'])).trans h.ne.symm
  | ddx => exact ((length_var h (k := .ddx) rfl).trans (hz size_ddx fun h' => by simp [Key.size, h'])).trans h.ne.symm
  | ddxr => exact absurd rfl hf

theorem test_ran (h : Describes y c) (hj : JointsOk c) (hx : c.elastic = true ∨ c.ne = 0) :
    ∃ out r, Test.main (some y) = .printed out ∧ Done c r (Fn.lib c) ∧ (r.arg "par_REG").length = 10 * c.n ∧
      (∀ i < c.n, ∀ k < 10, (r.arg "par_REG").getD (10 * i + k) none = some (linearOf c i k)) ∧ Ran y c r out := by
  obtain ⟨r, e, hd, hr, hl, hreg⟩ := test_robot h hj
  obtain ⟨out, r', eb, ho⟩ := body_ok hr hd (test_ready hd hr hx) hl hreg
  refine ⟨out, r, ?_, hd, hl, hreg, ho⟩
  unfold Test.main
  rw [e]
  dsimp only
  rw [eb]

theorem setAll_exc (hd : Done c r (Fn.lib c)) (he : c.elastic = false) (hne : 0 < c.ne) {r₁ : Robot} (hs : Sim r r₁) :
    ∃ r', Test.setAll r r₁ = .exc r' := by
  have hl : ∀ (k : Key), k.isVar = true → (r₁.arg k.str).length = k.size c := fun k hk => by rw [← hs.arg]; exact length_var hd hk
  have hn : r.n = c.n := hd.n
  have hnr : r₁.n = c.n := hs.n.trans hd.n
  have hne' : r.ne = c.ne := hd.ne
  have e1 : setVar .q (List.replicate c.n (some 1)) r₁ = .ok 1 (r₁.setArgs "q" (List.replicate c.n (some 1))) :=
    setVar_ok ((hl .q rfl).trans hnr.symm) (by rw [List.length_replicate]; exact hnr.symm)
  obtain ⟨a, ha⟩ : ∃ a, a = r₁.setArgs "q" (List.replicate c.n (some 1)) := ⟨_, rfl⟩
  rw [← ha] at e1
  have na : a.n = c.n := by rw [ha]; exact hnr
  have nea : a.ne = c.ne := by rw [ha]; exact hs.ne.trans hne'
  have la : ∀ z, "q" ≠ z → a.arg z = r₁.arg z := fun z hz => by rw [ha, arg_setArgs, if_neg hz]
  have e2 : setVar .dq (List.replicate c.n (some 0)) a = .ok 1 (a.setArgs "dq" (List.replicate c.n (some 0))) :=
    setVar_ok (by rw [la _ (by decide)]; exact (hl .dq rfl).trans na.symm) (by rw [List.length_replicate]; exact na.symm)
  obtain ⟨b, hb⟩ : ∃ b, b = a.setArgs "dq" (List.replicate c.n (some 0)) := ⟨_, rfl⟩
  rw [← hb] at e2
  have nb : b.n = c.n := by rw [hb]; exact na
  have neb : b.ne = c.ne := by rw [hb]; exact nea
  have lb : ∀ z, "q" ≠ z → "dq" ≠ z → b.arg z = r₁.arg z := fun z h1 hz => by rw [hb, arg_setArgs, if_neg hz, la z h1]
  have e3 : setVar .dqr (List.replicate c.n (some 0)) b = .ok 1 (b.setArgs "dqr" (List.replicate c.n (some 0))) :=
    setVar_ok (by rw [lb _ (by decide) (by decide)]; exact (hl .dqr rfl).trans nb.symm) (by rw [List.length_replicate]; exact nb.symm)
  obtain ⟨d, hd'⟩ : ∃ d, d = b.setArgs "dqr" (List.replicate c.n (some 0)) := ⟨_, rfl⟩
  rw [← hd'] at e3
  have nd : d.n = c.n := by rw [hd']; exact nb
  have ned : d.ne = c.ne := by rw [hd']; exact neb
  have ld : ∀ z, "q" ≠ z → "dq" ≠ z → "dqr" ≠ z → d.arg z = r₁.arg z := fun z h1 h2 hz => by rw [hd', arg_setArgs, if_neg hz, lb z h1 h2]
  have e4 : setVar .ddqr (List.replicate c.n (some 0)) d = .ok 1 (d.setArgs "ddqr" (List.replicate c.n (some 0))) :=
    setVar_ok (by rw [ld _ (by decide) (by decide) (by decide)]; exact (hl .ddqr rfl).trans nd.symm) (by rw [List.length_replicate]; exact nd.symm)
  obtain ⟨f, hf⟩ : ∃ f, f = d.setArgs "ddqr" (List.replicate c.n (some 0)) := ⟨_, rfl⟩
  rw [← hf] at e4
  have nef : f.ne = c.ne := by rw [hf]; exact ned
  have lf : (f.arg "x").length = 0 := by
    rw [hf, arg_setArgs, if_neg (by decide), ld _ (by decide) (by decide) (by decide)]
    exact (hl .x rfl).trans (by simp [Key.size, he])
  have e5 : ∃ r', setVar .x (List.replicate c.ne (some 0)) f = .exc r' := by
    refine ⟨(f.touchArg "x").setArgs "x" [], ?_⟩
    unfold setVar
    rw [bind_ok (read_run _)]
    unfold setSized
    rw [bind_ok (modify_run _ _), if_pos (by rw [List.length_replicate]; exact nef.symm)]
    refine bind_exc ?_
    show assign "x" _ _ = _
    unfold assign
    rw [bind_ok (read_run _), arg_touch]
    simp only [List.length_replicate, lf, show ¬ c.ne ≤ 0 by omega, if_false, List.take_zero]
    rw [bind_ok (modify_run _ _)]
    rfl
  obtain ⟨r', e5⟩ := e5
  refine ⟨r', ?_⟩
  unfold Test.setAll
  rw [hn, hne', bind_ok e1, bind_ok e2, bind_ok e3, bind_ok e4, bind_exc e5]

theorem test_thrown (h : Describes y c) (hj : JointsOk c) (he : c.elastic = false) (hne : 0 < c.ne) : Test.main (some y) = .thrown := by
  obtain ⟨r, e, hd, hr, hl, hreg⟩ := test_robot h hj
  obtain ⟨r₁, e₁, h₁, s₁⟩ := pars_ok hr hd hl
  obtain ⟨r₂, e₂⟩ := setAll_exc hd he hne s₁
  have eb : Test.body r = .exc r₂ := by
    unfold Test.body
    rw [bind_ok (read_run _), bind_ok e₁]
    dsimp only
    rw [bind_exc e₂]
  unfold Test.main
  rw [e]
  dsimp only
  rw [eb]

end

end

end Thunder
