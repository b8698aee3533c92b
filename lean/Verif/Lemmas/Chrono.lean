import Verif.Spec.Chrono
import Verif.Lemmas.ClassTest

/-!
# The programs that measure times
-/

open scoped Classical
open Matrix

namespace Thunder

noncomputable section

open Spec Robot Act

namespace Chrono

/-! ## The loops -/

theorem toInt_of {d : ℤ} (h1 : -2 ^ 31 ≤ d) (h2 : d < 2 ^ 31) : toInt d = d := by
  unfold toInt
  rw [Int.bmod_def]
  split_ifs <;> omega

theorem durations_succ (clk : Clock) (t n : ℕ) : durations clk t (n + 1) = (clk (t + 1) - clk t) :: durations clk (t + 2) n := by
  unfold durations
  rw [List.range_succ_eq_map, List.map_cons, List.map_map]
  congr 1
  refine List.map_congr_left fun k _ => ?_
  show clk (t + 2 * (k + 1) + 1) - clk (t + 2 * (k + 1)) = _
  rw [show t + 2 * (k + 1) = t + 2 + 2 * k by ring]

/-- What a loop computes does not depend on how the durations are kept. -/
theorem loop_ok {σ : Type} {keep : ℤ → ℤ → ℤ} {clk : Clock} {call : Act σ Mat} {I : σ → Prop} {P : Mat → Prop}
    (hc : ∀ s, I s → ∃ m s', call s = .ok m s' ∧ P m ∧ I s') : ∀ (n : ℕ) (m : ℤ) (t : ℕ) {s : σ}, I s →
    ∃ l s', loop keep clk call n m t s = .ok ((durations clk t n).foldl keep m, l) s' ∧ l.length = n ∧ (∀ v ∈ l, P v) ∧ I s'
  | 0, m, t, s, h => ⟨[], s, rfl, rfl, (fun _ h => nomatch h), h⟩
  | n + 1, m, t, s, h => by
    obtain ⟨v, s₁, e₁, hv, h₁⟩ := hc s h
    obtain ⟨l, s₂, e₂, hl, hp, h₂⟩ := loop_ok hc n (keep m (clk (t + 1) - clk t)) (t + 2) h₁
    refine ⟨v :: l, s₂, ?_, by rw [List.length_cons, hl], fun x hx => ?_, h₂⟩
    · show (call >>= _) s = _
      rw [bind_ok e₁, bind_ok e₂, durations_succ, List.foldl_cons]
      rfl
    · rcases List.mem_cons.1 hx with rfl | hx
      · exact hv
      · exact hp x hx

/-- The lines, with the values of the calls. -/
theorem lines_ok {σ : Type} {keep : ℤ → ℤ → ℤ} {clk : Clock} {call : String → Act σ Mat} {reps : ℕ} {I : σ → Prop} {P : String → Mat → Prop} :
    ∀ (l : List (String × String)) (t : ℕ) {s : σ}, (∀ p ∈ l, ∀ s, I s → ∃ m s', call p.2 s = .ok m s' ∧ P p.2 m ∧ I s') → I s →
    ∃ out s', lines keep clk call reps l t s = .ok out s' ∧ I s' ∧ out.map Line.heading = l.map Prod.fst ∧
      out.map Line.time = (List.range l.length).map (fun i => (((durations clk (t + 2 * reps * i) reps).foldl keep limit : ℤ) : ℚ) / 1000) ∧
      (∀ x ∈ out, x.values.length = reps) ∧ ∀ p ∈ l, ∃ x ∈ out, x.heading = p.1 ∧ ∀ v ∈ x.values, P p.2 v
  | [], t, s, _, h => ⟨[], s, rfl, h, rfl, rfl, (fun _ h => nomatch h), fun _ h => nomatch h⟩
  | (h, f) :: l, t, s, hc, hs => by
    obtain ⟨v, s₁, e₁, hl, hv, h₁⟩ := loop_ok (keep := keep) (clk := clk) (hc (h, f) List.mem_cons_self) reps limit t hs
    obtain ⟨out, s₂, e₂, h₂, a1, a2, a3, a4⟩ := lines_ok (keep := keep) (clk := clk) (reps := reps) l (t + 2 * reps)
      (fun p hp => hc p (List.mem_cons_of_mem _ hp)) h₁
    refine ⟨⟨h, (((durations clk t reps).foldl keep limit : ℤ) : ℚ) / 1000, v⟩ :: out, s₂, ?_, h₂, by rw [List.map_cons, List.map_cons, a1], ?_, ?_, ?_⟩
    · show (loop keep clk (call f) reps limit t >>= _) s = _
      rw [bind_ok e₁]
      dsimp only
      rw [bind_ok e₂]
      rfl
    · rw [List.map_cons, a2, List.length_cons, List.range_succ_eq_map, List.map_cons, List.map_map]
      congr 1
      refine List.map_congr_left fun i _ => ?_
      show _ = (((durations clk (t + 2 * reps * (i + 1)) reps).foldl keep limit : ℤ) : ℚ) / 1000
      rw [show t + 2 * reps * (i + 1) = t + 2 * reps + 2 * reps * i by ring]
    · intro x hx
      rcases List.mem_cons.1 hx with rfl | hx
      · exact hl
      · exact a3 x hx
    · intro p hp
      rcases List.mem_cons.1 hp with rfl | hp
      · exact ⟨_, List.mem_cons_self, rfl, hv⟩
      · obtain ⟨x, hx, h⟩ := a4 p hp
        exact ⟨x, List.mem_cons_of_mem _ hx, h⟩

/-! ## The time kept -/

theorem keep_eq {m d : ℤ} (hm : -2 ^ 31 ≤ m) (hm' : m ≤ limit) (hd : -2 ^ 31 ≤ d) : keep m d = min m d := by
  unfold keep
  unfold limit at hm'
  rw [toInt_of] <;> split_ifs <;> omega

theorem fold_keep : ∀ (l : List ℤ) {m : ℤ}, -2 ^ 31 ≤ m → m ≤ limit → (∀ d ∈ l, -2 ^ 31 ≤ d) →
    (l.foldl keep m = m ∨ l.foldl keep m ∈ l) ∧ l.foldl keep m ≤ m ∧ ∀ d ∈ l, l.foldl keep m ≤ d
  | [], m, _, _, _ => ⟨.inl rfl, le_refl _, fun _ h => nomatch h⟩
  | a :: l, m, h1, h2, h3 => by
    have ha := h3 a List.mem_cons_self
    rw [List.foldl_cons, keep_eq h1 h2 ha]
    obtain ⟨b1, b2, b3⟩ := fold_keep l (m := min m a) (le_min h1 ha) ((min_le_left _ _).trans h2) fun d hd => h3 d (List.mem_cons_of_mem _ hd)
    refine ⟨?_, b2.trans (min_le_left _ _), fun d hd => ?_⟩
    · rcases b1 with b | b
      · rcases le_total m a with h | h
        · exact .inl (b.trans (min_eq_left h))
        · exact .inr (by rw [b, min_eq_right h]; exact List.mem_cons_self)
      · exact .inr (List.mem_cons_of_mem _ b)
    · rcases List.mem_cons.1 hd with rfl | hd
      · exact b2.trans (min_le_right _ _)
      · exact b3 d hd

theorem keepPos_eq {m d : ℤ} (hm : 0 < m) (hm' : m ≤ limit) : keepPos m d = if d < m ∧ 0 < d then d else m := by
  unfold keepPos
  unfold limit at hm'
  rw [toInt_of]
  · split_ifs <;> omega
  · split_ifs <;> omega

theorem fold_keepPos : ∀ (l : List ℤ) {m : ℤ}, 0 < m → m ≤ limit →
    (l.foldl keepPos m = m ∨ l.foldl keepPos m ∈ l) ∧ 0 < l.foldl keepPos m ∧ l.foldl keepPos m ≤ m ∧ ∀ d ∈ l, 0 < d → l.foldl keepPos m ≤ d
  | [], m, h, _ => ⟨.inl rfl, h, le_refl _, fun _ h => nomatch h⟩
  | a :: l, m, h1, h2 => by
    rw [List.foldl_cons, keepPos_eq h1 h2]
    have hk : 0 < (if a < m ∧ 0 < a then a else m) ∧ (if a < m ∧ 0 < a then a else m) ≤ m ∧ (0 < a → (if a < m ∧ 0 < a then a else m) ≤ a) ∧
        ((if a < m ∧ 0 < a then a else m) = m ∨ (if a < m ∧ 0 < a then a else m) = a) := by
      split_ifs <;> omega
    obtain ⟨k1, k2, k3, k4⟩ := hk
    obtain ⟨b1, b2, b3, b4⟩ := fold_keepPos l k1 (k2.trans h2)
    refine ⟨?_, b2, b3.trans k2, fun d hd h0 => ?_⟩
    · rcases b1 with b | b
      · rcases k4 with h | h
        · exact .inl (b.trans h)
        · exact .inr (by rw [b, h]; exact List.mem_cons_self)
      · exact .inr (List.mem_cons_of_mem _ b)
    · rcases List.mem_cons.1 hd with rfl | hd
      · exact b3.trans (k3 h0)
      · exact b4 d hd h0

end Chrono

/-! ## The values -/

section

variable [Fl] {y : Yaml} {c : Conf} {l : List Chrono.Line} {reps : ℕ}

/-- The values from those of a source. -/
theorem computes_of (hU : UnitNumeric c) (hl : ∀ x ∈ l, x.values.length = reps)
    (h : ∀ p ∈ Chrono.timed, ∃ x ∈ l, x.heading = p.1 ∧ ∀ v ∈ x.values, ∃ R, Source y c (onesState c) R ∧ R p.2 v ∧ ∀ m, R p.2 m → m = v) : Computes c reps l := by
  have key : ∀ {hd f : String} {a b : ℕ} {A : Matrix (Fin a) (Fin b) ℝ}, (hd, f) ∈ Chrono.timed → (∀ R, Source y c (onesState c) R → Returns R f A) →
      ∀ k < reps, Returns (computed l k) hd A := by
    intro hd f a b A hf hA k hk
    obtain ⟨x, hx, hh, hv⟩ := h _ hf
    have hk' : k < x.values.length := by rw [hl x hx]; exact hk
    obtain ⟨R, hR, -, hu⟩ := hv _ (List.getElem_mem hk')
    obtain ⟨m, hm, r⟩ := hA R hR
    obtain rfl := hu m hm
    exact ⟨_, ⟨x, hx, hh, List.getElem?_eq_getElem hk'⟩, r⟩
  refine ⟨key (f := "T_0_ee") (by decide) fun R hR => (C56_frames hR).2.2.2.2, key (f := "J_ee") (by decide) fun R hR => (C57_jacobians hR hU).2.2,
    key (f := "M") (by decide) fun R hR => (C58_matrices hR hU).1, key (f := "C") (by decide) fun R hR => (C58_matrices hR hU).2.1,
    key (f := "C_std") (by decide) fun R hR => (C58_matrices hR hU).2.2.1, key (f := "G") (by decide) fun R hR => (C58_matrices hR hU).2.2.2, fun k hk => ?_⟩
  obtain ⟨x, hx, hh, hv⟩ := h ("time Yr", "Yr") (by decide)
  have hk' : k < x.values.length := by rw [hl x hx]; exact hk
  obtain ⟨R, hR, -, hu⟩ := hv _ (List.getElem_mem hk')
  obtain ⟨Y, _, _, _, ⟨m, hm, r⟩, -, -, -, -, hp⟩ := C59_inertial hR hU
  obtain rfl := hu m hm
  exact ⟨Y, ⟨_, ⟨x, hx, hh, List.getElem?_eq_getElem hk'⟩, r⟩, fun p => (hp p).2.2.2⟩

/-! ## The program with robots -/

theorem ready_four {r : Robot} (h : Done c r (Fn.lib c)) (hu : InUse y r) : InUse y r ∧ r.n = c.n ∧
    ∀ f ∈ [VarName.q, .dq, .dqr, .ddqr], (r.arg f.key).length = f.size r := by
  refine ⟨hu, h.n, fun f hf => ?_⟩
  simp only [List.mem_cons, List.not_mem_nil, or_false] at hf
  rcases hf with rfl | rfl | rfl | rfl
  · exact (length_var h (k := .q) rfl).trans h.n.symm
  · exact (length_var h (k := .dq) rfl).trans h.n.symm
  · exact (length_var h (k := .dqr) rfl).trans h.n.symm
  · exact (length_var h (k := .ddqr) rfl).trans h.n.symm

/-- A setter called on a robot in use. -/
theorem set_step {r r' : Robot} (h : InUse y r ∧ r.n = c.n ∧ ∀ f ∈ [VarName.q, .dq, .dqr, .ddqr], (r.arg f.key).length = f.size r) {f : VarName}
    (hf : f ∈ [VarName.q, .dq, .dqr, .ddqr]) (h' : r' = r.setArgs f.key (List.replicate c.n (some 1))) :
    setVar f (List.replicate c.n (some 1)) r = .ok 1 r' ∧ InUse y r' ∧ r'.n = c.n ∧ ∀ f ∈ [VarName.q, .dq, .dqr, .ddqr], (r'.arg f.key).length = f.size r' := by
  subst h'
  have hv : (List.replicate c.n (some (1 : ℝ))).length = f.size r := by
    rw [List.length_replicate, ← h.2.1]
    simp only [List.mem_cons, List.not_mem_nil, or_false] at hf
    rcases hf with rfl | rfl | rfl | rfl <;> rfl
  refine ⟨setVar_ok (h.2.2 f hf) hv, inUse_set h.1 (h.2.2 f hf) hv, h.2.1, fun g hg => ?_⟩
  rw [arg_setArgs]
  split_ifs with e
  · have : f = g := by cases f <;> cases g <;> first | rfl | exact absurd e (by decide)
    subst this
    exact hv.trans (by cases f <;> rfl)
  · exact (h.2.2 g hg).trans (by cases g <;> rfl)

theorem prepare_ones {r : Robot} (hd : Done c r (Fn.lib c)) (hr : Running y c ⟨0, 0, 0, 0, 0, 0, 0, 0, 0, 0⟩ r) :
    ∃ r', Chrono.prepare r = .ok () r' ∧ Running y c (onesState c) r' := by
  have hlen : (symbolics (10 * c.n) c.fdyn c.dyn).length ≤ 10 * c.n := by
    unfold symbolics
    rw [List.length_map]
    exact (List.length_filter_le _ _).trans (by rw [List.length_range])
  have e0 : getParDYN r = .ok _ (r.touchArg "par_DYN") := getPar10_run (v := symbolics (10 * c.n) c.fdyn c.dyn ++
    List.replicate (10 * c.n - (symbolics (10 * c.n) c.fdyn c.dyn).length) none) _ _ (by
      rw [hr.args.DYN, hd.n, Robot.fill, if_pos hlen])
  obtain ⟨z, hz⟩ : ∃ z, z = r.touchArg "par_DYN" := ⟨_, rfl⟩
  have sz : Sim r z := hz ▸ sim_touch r _
  have hrz : Running y c ⟨0, 0, 0, 0, 0, 0, 0, 0, 0, 0⟩ z := hz ▸ running_touch hr _
  have hr' := hrz.args
  obtain ⟨a, ha⟩ : ∃ a, a = z.setArgs "q" (List.replicate c.n (some 1)) := ⟨_, rfl⟩
  obtain ⟨b, hb⟩ : ∃ b, b = a.setArgs "dq" (List.replicate c.n (some 1)) := ⟨_, rfl⟩
  obtain ⟨d, hd'⟩ : ∃ d, d = b.setArgs "dqr" (List.replicate c.n (some 1)) := ⟨_, rfl⟩
  obtain ⟨e, he⟩ : ∃ e, e = d.setArgs "ddqr" (List.replicate c.n (some 1)) := ⟨_, rfl⟩
  have ka : ∀ x, e.arg x = if "ddqr" = x then List.replicate c.n (some 1) else if "dqr" = x then List.replicate c.n (some 1) else
      if "dq" = x then List.replicate c.n (some 1) else if "q" = x then List.replicate c.n (some 1) else z.arg x := by
    intro x
    rw [he, hd', hb, ha]
    simp only [arg_setArgs]
  have u0 : InUse y z ∧ z.n = c.n ∧ ∀ f ∈ [VarName.q, .dq, .dqr, .ddqr], (z.arg f.key).length = f.size z := by
    obtain ⟨_, h2, h3⟩ := ready_four hd hr.use
    refine ⟨hrz.use, sz.n.trans h2, fun f hf => ?_⟩
    rw [← sz.arg, h3 f hf]
    simp only [List.mem_cons, List.not_mem_nil, or_false] at hf
    rcases hf with rfl | rfl | rfl | rfl <;> first | exact sz.n.symm | exact sz.n
  obtain ⟨e1, u1⟩ := set_step u0 (f := .q) (by decide) ha
  obtain ⟨e2, u2⟩ := set_step u1 (f := .dq) (by decide) hb
  obtain ⟨e3, u3⟩ := set_step u2 (f := .dqr) (by decide) hd'
  obtain ⟨e4, u4⟩ := set_step u3 (f := .ddqr) (by decide) he
  clear ha hb hd' he
  refine ⟨e, ?_, ⟨hrz.file, u4.1, ?_⟩⟩
  · unfold Chrono.prepare
    rw [bind_ok (show (Act.read : Act Robot Robot) r = .ok r r from rfl), bind_ok e0, ← hz, hd.n, bind_ok e1, bind_ok e2, bind_ok e3, bind_ok e4]
    rfl
  · have o : ∀ {v : Fin c.n → ℝ}, v = (fun _ => 1) → stored v = List.replicate c.n (some 1) := fun h => h ▸ stored_const 1
    constructor
    · rw [ka, o (v := (onesState c).q) rfl]; rfl
    · rw [ka, o (v := (onesState c).dq) rfl]; rfl
    · rw [ka]; exact hr'.ddq
    · rw [ka]; exact hr'.d3q
    · rw [ka, o (v := (onesState c).dqr) rfl]; rfl
    · rw [ka, o (v := (onesState c).ddqr) rfl]; rfl
    · rw [ka]; exact hr'.w
    · rw [ka]; exact hr'.DH
    · rw [ka]; exact hr'.W2L
    · rw [ka]; exact hr'.EE
    · rw [ka]; exact hr'.grav
    · rw [ka]; exact hr'.DYN
    · rw [ka]; exact hr'.Dl
    · intro h; rw [ka]; exact hr'.x h
    · intro h; rw [ka]; exact hr'.dx h
    · intro h; rw [ka]; exact hr'.ddx h
    · rw [ka]; exact hr'.K
    · rw [ka]; exact hr'.D
    · rw [ka]; exact hr'.Dm
    · rw [ka]; exact hr'.Mm

/-- The report for one robot. -/
theorem one_ok (h : Describes y c) (hj : JointsOk c) {name : String} (hnm : RobotName name) (clk : Chrono.Clock) (t : ℕ) :
    ∃ p : Chrono.Report, Chrono.one clk name (some y) t = .inl p ∧ p.name = name ∧ p.created = (clk (t + 1) - clk t).tdiv 1000 ∧
      p.lines.map Chrono.Line.heading = chronoHeadings ∧
      p.lines.map Chrono.Line.time = (List.range 7).map (fun i => (((durations clk (t + 4 + 200 * i) 100).foldl Chrono.keep Chrono.limit : ℤ) : ℚ) / 1000) ∧
      (∀ x ∈ p.lines, x.values.length = 100) ∧ (UnitNumeric c → Computes c 100 p.lines) := by
  obtain ⟨r, e, hr⟩ := C56_start h hj hnm
  obtain ⟨r', e', hd⟩ := fromFile_ok h hj.1 (typed_of hj) hnm
  rw [e] at e'
  obtain rfl : r = r' := by cases e'; rfl
  obtain ⟨r₁, e₁, h₁⟩ := prepare_ones hd hr
  obtain ⟨out, r₂, e₂, -, a1, a2, a3, a4⟩ := Chrono.lines_ok (keep := Chrono.keep) (clk := clk) (call := Robot.get) (reps := 100)
    (I := Running y c (onesState c)) (P := fun f m => Says y c (onesState c) f m) Chrono.timed (t + 4) (fun p _ s hs => by
      obtain ⟨m, s', g1, g2, g3, -⟩ := running_get hs p.2
      exact ⟨m, s', g1, g2, g3⟩) h₁
  refine ⟨⟨name, (clk (t + 1) - clk t).tdiv 1000, out⟩, ?_, rfl, rfl, a1, a2, a3, fun hU => ?_⟩
  · unfold Chrono.one Chrono.measure
    rw [e]
    dsimp only
    rw [bind_ok e₁, e₂]
  · refine computes_of (y := y) hU a3 fun p hp => ?_
    obtain ⟨x, hx, hh, hv⟩ := a4 p hp
    refine ⟨x, hx, hh, fun v hv' => ?_⟩
    obtain ⟨r₃, h3, r₄, e4⟩ := hv v hv'
    refine ⟨_, .robot h3, ⟨r₄, e4⟩, fun m ⟨r₅, e5⟩ => ?_⟩
    rw [e4] at e5
    exact (Res.ok.inj e5).1.symm

/-! ## The program with a generated class -/

namespace Chrono

/-- The object before the getters are called. -/
def ready (n : ℕ) (o : Wrap.Obj) : Wrap.Obj :=
  (((o.set .q (List.replicate n (some 1))).set .dq (List.replicate n (some 1))).set .dqr (List.replicate n (some 1))).set .ddqr (List.replicate n (some 1))

omit [Fl] in
theorem prepareClass_ok {c : Wrap.Cfg} {file : Option Yaml} {o : Wrap.Obj} (h : Wrap.loadConf c file true (Wrap.init c) = some o) :
    prepareClass c file = some (ready c.n o) := by
  unfold prepareClass
  rw [h, Option.bind_some]
  unfold Wrap.setArguments
  rw [if_pos (by simp)]
  rfl

omit [Fl] in
theorem ready_other {n : ℕ} {o : Wrap.Obj} {f : Wrap.Field} (h : f ∉ [Wrap.Field.q, .dq, .dqr, .ddqr]) : (ready n o).vec f = o.vec f := by
  simp only [List.mem_cons, List.not_mem_nil, or_false, not_or] at h
  unfold ready
  rw [Wrap.set_vec_ne _ _ h.2.2.2, Wrap.set_vec_ne _ _ h.2.2.1, Wrap.set_vec_ne _ _ h.2.1, Wrap.set_vec_ne _ _ h.1]

end Chrono

omit [Fl] in
/-- The object of the program after a file of the form `c` has been loaded. -/
theorem chrono_loaded (h : Describes y c) : ∃ o, Chrono.prepareClass (Wrap.cfg c) (some y) = some o ∧ Wrap.Loaded c o ∧ Moves c (onesState c) o := by
  obtain ⟨o₁, e₁, -, -, hl, hv⟩ := Wrap.loadConf_ok h true (Wrap.sized_init (Wrap.cfg c)) (Wrap.symbs_init c)
  have rest : ∀ f : Wrap.Field, f ∉ [Wrap.Field.q, .dq, .dqr, .ddqr] → (Chrono.ready c.n o₁).vec f = o₁.vec f := fun f hf => Chrono.ready_other hf
  have st : ∀ {k : ℕ} {x : ℝ}, List.replicate k (some x) = stored fun _ : Fin k => x := by
    intro k x
    unfold stored
    rw [List.ofFn_const]
  refine ⟨_, Chrono.prepareClass_ok e₁, ?_, ?_⟩
  · refine ⟨?_, ?_, ?_, ?_, ?_, ?_, fun he => ?_, fun he => ?_, fun he => ?_, fun he => ?_⟩
    · exact (rest .DH (by decide)).trans hl.dh
    · exact (rest .W2L (by decide)).trans hl.w2l
    · exact (rest .EE (by decide)).trans hl.ee
    · exact hl.grav.imp (fun h => (rest .G (by decide)).trans h) id
    · exact (rest .DYN (by decide)).trans hl.dyn
    · exact (rest .Dl (by decide)).trans hl.dl
    · exact (rest .K (by decide)).trans (hl.K he)
    · exact (rest .D (by decide)).trans (hl.D he)
    · exact (rest .Dm (by decide)).trans (hl.Dm he)
    · exact (rest .Mm (by decide)).trans (hl.Mm he)
  · have z : ∀ k : Key, k.isVar = true → k.field ∉ [Wrap.Field.q, .dq, .dqr, .ddqr] → (Chrono.ready c.n o₁).vec k.field = stored fun _ : Fin ((Wrap.cfg c).size k.field) => (0 : ℝ) :=
      fun k hk h0 => (rest _ h0).trans ((hv k hk).trans st)
    exact ⟨st, st, z .ddq rfl (by decide), z .d3q rfl (by decide), st, st, z .w rfl (by decide), fun _ => z .x rfl (by decide), fun _ => z .dx rfl (by decide),
      fun _ => z .ddx rfl (by decide)⟩

/-- The run with an object of the generated class. -/
theorem chrono_class {g : Robot} {o : Wrap.Obj} {file : Option Yaml} (hg : Generated y c (onesState c) g o) (e : Chrono.prepareClass (Wrap.cfgOf g) file = some o)
    (clk : Chrono.Clock) : ∃ l, Chrono.mainClass clk g file = .printed l ∧ l.map Chrono.Line.heading = chronoHeadings ∧
      l.map Chrono.Line.time = (List.range 7).map (fun i => (((durations clk (2 + 20000 * i) 10000).foldl Chrono.keepPos Chrono.limit : ℤ) : ℚ) / 1000) ∧
      (∀ x ∈ l, x.values.length = 10000) ∧ (UnitNumeric c → Computes c 10000 l) := by
  have hS : Source y c (onesState c) (classAnswers g o) := .generated hg
  have val : ∀ p ∈ Chrono.timed, ∃ m, Wrap.getter g p.2 o = .value m := by
    have w : ∀ {f : String} {a b : ℕ} {A : Matrix (Fin a) (Fin b) ℝ}, Returns (classAnswers g o) f A → ∃ m, Wrap.getter g f o = .value m := fun ⟨m, h, _⟩ => ⟨m, h⟩
    intro p hp
    simp only [Chrono.timed, List.mem_cons, List.not_mem_nil, or_false] at hp
    rcases hp with rfl | rfl | rfl | rfl | rfl | rfl | rfl
    · exact w (C56_frames hS).2.2.2.2
    · exact w (hS.gives .Jee trivial (by decide) rfl rfl rfl)
    · exact w (hS.gives .M trivial (by decide) rfl rfl rfl)
    · exact w (hS.gives .C trivial (by decide) rfl rfl rfl)
    · exact w (hS.gives .Cstd trivial (by decide) rfl rfl rfl)
    · exact w (hS.gives .G trivial (by decide) rfl rfl rfl)
    · exact w (hS.gives .Yr trivial (by decide) rfl rfl rfl)
  obtain ⟨out, o₂, e₂, -, a1, a2, a3, a4⟩ := Chrono.lines_ok (keep := Chrono.keepPos) (clk := clk) (call := Chrono.getter g) (reps := 10000)
    (I := fun x => x = o) (P := fun f m => Wrap.getter g f o = .value m) Chrono.timed 2 (fun p hp s hs => by
      obtain ⟨m, hm⟩ := val p hp
      subst hs
      refine ⟨m, s, ?_, hm, rfl⟩
      unfold Chrono.getter
      rw [hm]
      rfl) rfl
  refine ⟨out, ?_, a1, a2, a3, fun hU => ?_⟩
  · unfold Chrono.mainClass
    rw [if_pos, e]
    · dsimp only
      rw [e₂]
    · rw [List.all_eq_true]
      intro f hf
      obtain ⟨p, hp, rfl⟩ := List.mem_map.1 hf
      obtain ⟨m, hm⟩ := val p hp
      exact ClassTest.hasGetter_of hm
  · refine computes_of (y := y) hU a3 fun p hp => ?_
    obtain ⟨x, hx, hh, hv⟩ := a4 p hp
    refine ⟨x, hx, hh, fun v hv' => ⟨_, hS, hv v hv', fun m hm => ?_⟩⟩
    have h1 : Wrap.getter g p.2 o = .value m := hm
    rw [hv v hv'] at h1
    cases h1
    rfl

end

end

end Thunder
