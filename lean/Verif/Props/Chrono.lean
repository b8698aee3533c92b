import Verif.Lemmas.Chrono
import Verif.Props.Shipped
import Verif.Props.Config

/-!
# The programs `thunder_test_chrono` and `thunder_robot_test_chrono`: C72
-/

open scoped Classical
open Matrix

namespace Thunder

noncomputable section

open Spec Robot Act

variable [Fl] {y y₀ : Yaml} {c c₀ : Conf}

/-- C72: for a well-formed file the program with robots prints the seven lines, and each of the hundred calls for a line computes the matrix of the
mechanism of the file with all variables of motion one. -/
theorem C72_robot (h : Describes y c) (hj : JointsOk c) {name : String} (hnm : RobotName name) (clk : ℕ → ℤ) (t : ℕ) :
    ∃ p : Chrono.Report, Chrono.one clk name (some y) t = .inl p ∧ p.name = name ∧ p.lines.map Chrono.Line.heading = chronoHeadings ∧
      (∀ x ∈ p.lines, x.values.length = 100) ∧ (UnitNumeric c → Computes c 100 p.lines) := by
  obtain ⟨p, e, h1, -, h2, -, h3, h4⟩ := one_ok h hj hnm clk t
  exact ⟨p, e, h1, h2, h3, h4⟩

omit [Fl] in
theorem keep_shortest {ds : List ℤ} (hd : ∀ d ∈ ds, -2 ^ 31 ≤ d) : (∃ d : ℤ, (((ds.foldl Chrono.keep Chrono.limit : ℤ) : ℚ) / 1000 = (d : ℚ) / 1000) ∧ Shortest ds d) ↔
    ∃ d ∈ ds, d ≤ 999999999 := by
  obtain ⟨h1, h2, h3⟩ := Chrono.fold_keep ds (m := Chrono.limit) (by unfold Chrono.limit; omega) (le_refl _) hd
  constructor
  · rintro ⟨d, e, hm, -⟩
    have e' : ds.foldl Chrono.keep Chrono.limit = d := by
      have : ((ds.foldl Chrono.keep Chrono.limit : ℤ) : ℚ) = d := by linarith
      exact_mod_cast this
    exact ⟨d, hm, e' ▸ h2⟩
  · rintro ⟨x, hx, hl⟩
    refine ⟨_, rfl, ?_, h3⟩
    rcases h1 with h1 | h1
    · have : x = Chrono.limit := le_antisymm hl (h1 ▸ h3 x hx)
      rw [h1, ← this]
      exact hx
    · exact h1

/-- C72 exactly, for a clock that is never set back by more than two seconds during a call: the time printed is the shortest duration that was measured if
and only if one of them is at most 999999999 nanoseconds. -/
theorem C72_iff (h : Describes y c) (hj : JointsOk c) {name : String} (hnm : RobotName name) (clk : ℕ → ℤ) (t : ℕ) {i : ℕ} (hi : i < 7)
    (hd : ∀ d ∈ durations clk (t + 4 + 200 * i) 100, -2 ^ 31 ≤ d) : ∃ p x, Chrono.one clk name (some y) t = .inl p ∧ p.lines[i]? = some x ∧
      ((∃ d : ℤ, x.time = (d : ℚ) / 1000 ∧ Shortest (durations clk (t + 4 + 200 * i) 100) d) ↔ ∃ d ∈ durations clk (t + 4 + 200 * i) 100, d ≤ 999999999) := by
  obtain ⟨p, e, -, -, -, h2, -, -⟩ := one_ok h hj hnm clk t
  have hl : i < p.lines.length := by
    have := congrArg List.length h2
    simp only [List.length_map, List.length_range] at this
    omega
  refine ⟨p, p.lines[i], e, List.getElem?_eq_getElem hl, ?_⟩
  have ht : (p.lines[i]).time = (((durations clk (t + 4 + 200 * i) 100).foldl Chrono.keep Chrono.limit : ℤ) : ℚ) / 1000 := by
    have := congrArg (·[i]?) h2
    simp only [List.getElem?_map, List.getElem?_eq_getElem hl, List.getElem?_range hi, Option.map_some, Option.some.injEq] at this
    exact this
  rw [ht]
  exact keep_shortest hd

/-- C72 as far as it holds: the time printed is the shortest duration when one call takes less than a second.  Not claimed, because false (`C72_fails`): the
same for slower functions or a clock that is set back. -/
theorem C72_partial (h : Describes y c) (hj : JointsOk c) {name : String} (hnm : RobotName name) (clk : ℕ → ℤ) (hm : Monotone clk) (t : ℕ) {i : ℕ} (hi : i < 7)
    (hs : ∃ k < 100, clk (t + 4 + 200 * i + 2 * k + 1) - clk (t + 4 + 200 * i + 2 * k) < 10 ^ 9) : ∃ p x, Chrono.one clk name (some y) t = .inl p ∧ p.lines[i]? = some x ∧
      ∃ d : ℤ, x.time = (d : ℚ) / 1000 ∧ Shortest (durations clk (t + 4 + 200 * i) 100) d := by
  have hd : ∀ d ∈ durations clk (t + 4 + 200 * i) 100, -2 ^ 31 ≤ d := by
    intro d hd
    obtain ⟨k, -, rfl⟩ := List.mem_map.1 hd
    have : clk (t + 4 + 200 * i + 2 * k) ≤ clk (t + 4 + 200 * i + 2 * k + 1) := hm (Nat.le_succ _)
    omega
  obtain ⟨p, x, e, hx, hiff⟩ := C72_iff h hj hnm clk t hi hd
  obtain ⟨k, hk, hs⟩ := hs
  exact ⟨p, x, e, hx, hiff.2 ⟨_, List.mem_map.2 ⟨k, List.mem_range.2 hk, rfl⟩, by omega⟩⟩

omit [Fl] in
theorem keepPos_shortest {ds : List ℤ} : (∃ d : ℤ, (((ds.foldl Chrono.keepPos Chrono.limit : ℤ) : ℚ) / 1000 = (d : ℚ) / 1000) ∧ Shortest (ds.filter (0 < ·)) d) ↔
    ∃ d ∈ ds, 0 < d ∧ d ≤ 999999999 := by
  obtain ⟨h1, h0, h2, h3⟩ := Chrono.fold_keepPos ds (m := Chrono.limit) (by unfold Chrono.limit; omega) (le_refl _)
  constructor
  · rintro ⟨d, e, hm, -⟩
    have e' : ds.foldl Chrono.keepPos Chrono.limit = d := by
      have : ((ds.foldl Chrono.keepPos Chrono.limit : ℤ) : ℚ) = d := by linarith
      exact_mod_cast this
    exact ⟨d, (List.mem_filter.1 hm).1, by simpa using (List.mem_filter.1 hm).2, e' ▸ h2⟩
  · rintro ⟨x, hx, hp, hl⟩
    refine ⟨_, rfl, List.mem_filter.2 ⟨?_, by simpa using h0⟩, fun z hz => h3 z (List.mem_filter.1 hz).1 (by simpa using (List.mem_filter.1 hz).2)⟩
    rcases h1 with h1 | h1
    · have : x = Chrono.limit := le_antisymm hl (h1 ▸ h3 x hx hp)
      rw [h1, ← this]
      exact hx
    · exact h1

/-- C72 for the program with a generated class, for a class and a file of the same form: the seven lines are printed, each of the ten thousand calls computes
the matrix of the mechanism for which the object stands after `load_conf` (C71), and the time printed is the shortest positive duration if and only if one of
the durations is positive and at most 999999999 nanoseconds. -/
theorem C72_class (h₀ : Describes y₀ c₀) (hj : JointsOk c₀) (h : Describes y c) (hf : SameForm c₀ c) {name : String} {g : Robot}
    (e : robotFromFile name (some y₀) true = .ok g) (clk : ℕ → ℤ) : ∃ l, Chrono.mainClass clk g (some y) = .printed l ∧
      l.map Chrono.Line.heading = chronoHeadings ∧ (∀ x ∈ l, x.values.length = 10000) ∧ (UnitNumeric c₀ → Computes (over c₀ c) 10000 l) ∧
      ∀ i < 7, ∃ x : Chrono.Line, l[i]? = some x ∧ ((∃ d : ℤ, x.time = (d : ℚ) / 1000 ∧ Shortest ((durations clk (2 + 20000 * i) 10000).filter (0 < ·)) d) ↔
        ∃ d ∈ durations clk (2 + 20000 * i) 10000, 0 < d ∧ d ≤ 999999999) := by
  obtain ⟨g₀, e₀, hd₀⟩ := fromFile_ok h₀ hj.1 (typed_of hj) (robotName_of_ok h₀ e)
  obtain rfl : g₀ = g := by rw [e] at e₀; cases e₀; rfl
  obtain ⟨o, e1, hl, hm⟩ := chrono_loaded h
  have hm' : Moves (over c₀ c) (onesState (over c₀ c)) o := by
    have st : ∀ {a b : ℕ} (x : ℝ), a = b → (stored fun _ : Fin a => x) = stored fun _ : Fin b => x := by rintro a _ x rfl; rfl
    have he : (over c₀ c).elastic = true → c.elastic = true := fun he => hf.elastic.trans he
    exact ⟨hm.q.trans (st 1 hf.n), hm.dq.trans (st 1 hf.n), hm.ddq.trans (st 0 hf.n), hm.d3q.trans (st 0 hf.n), hm.dqr.trans (st 1 hf.n), hm.ddqr.trans (st 1 hf.n),
      hm.w, fun h => (hm.x (he h)).trans (st 0 hf.ne), fun h => (hm.dx (he h)).trans (st 0 hf.ne), fun h => (hm.ddx (he h)).trans (st 0 hf.ne)⟩
  have hc : Wrap.cfgOf g₀ = Wrap.cfg c := by rw [Wrap.cfgOf_fixed hd₀.toFixed, hf.cfg]
  obtain ⟨l, h1, h2, h3, h4, h5⟩ := chrono_class (c := over c₀ c) ⟨⟨c₀, h₀, hj, retuned_over c₀ c⟩, ⟨name, e⟩, hl.over hf hm'⟩ (by rw [hc]; exact e1) clk
  refine ⟨l, h1, h2, h4, fun hU => h5 (unit_retuned (retuned_over c₀ c) hU), fun i hi => ?_⟩
  have hl : i < l.length := by
    have := congrArg List.length h3
    simp only [List.length_map, List.length_range] at this
    omega
  refine ⟨l[i], List.getElem?_eq_getElem hl, ?_⟩
  have ht : (l[i]).time = (((durations clk (2 + 20000 * i) 10000).foldl Chrono.keepPos Chrono.limit : ℤ) : ℚ) / 1000 := by
    have := congrArg (·[i]?) h3
    simp only [List.getElem?_map, List.getElem?_eq_getElem hl, List.getElem?_range hi, Option.map_some, Option.some.injEq] at this
    exact this
  rw [ht]
  exact keepPos_shortest

/-! ## Where it fails -/

omit [Fl] in
theorem mem_durations {clk : ℕ → ℤ} {d : ℤ} (h : ∀ k, clk (2 * k + 1) - clk (2 * k) = d) {t n : ℕ} {x : ℤ} (hx : x ∈ durations clk (2 * t) n) : x = d := by
  obtain ⟨k, -, rfl⟩ := List.mem_map.1 hx
  rw [show 2 * t + 2 * k = 2 * (t + k) by ring]
  exact h _

/-- C72 is false of the code: with a function of which every call takes more than 999999999 nanoseconds the program with robots prints 999999.999
microseconds, less than any call took. -/
theorem C72_fails (h : Describes y c) (hj : JointsOk c) {name : String} (hnm : RobotName name) {d : ℤ} (hd : 999999999 < d) (clk : ℕ → ℤ)
    (hc : ∀ k, clk (2 * k + 1) - clk (2 * k) = d) : ∃ p, Chrono.one clk name (some y) 0 = .inl p ∧ p.lines.length = 7 ∧ ∀ x ∈ p.lines, x.time = 999999999 / 1000 := by
  obtain ⟨p, e, -, -, -, h2, -, -⟩ := one_ok h hj hnm clk 0
  refine ⟨p, e, by simpa using congrArg List.length h2, fun x hx => ?_⟩
  have : x.time ∈ (List.range 7).map (fun i => (((durations clk (0 + 4 + 200 * i) 100).foldl Chrono.keep Chrono.limit : ℤ) : ℚ) / 1000) := by
    rw [← h2]
    exact List.mem_map_of_mem hx
  obtain ⟨i, -, e'⟩ := List.mem_map.1 this
  rw [show 0 + 4 + 200 * i = 2 * (2 + 100 * i) by ring] at e'
  obtain ⟨h1, h2, h3⟩ := Chrono.fold_keep (durations clk (2 * (2 + 100 * i)) 100) (m := Chrono.limit) (by unfold Chrono.limit; omega) (le_refl _)
    (fun x hx => by rw [mem_durations hc hx]; omega)
  have h4 : (durations clk (2 * (2 + 100 * i)) 100).foldl Chrono.keep Chrono.limit = Chrono.limit := by
    rcases h1 with h1 | h1
    · exact h1
    · have := mem_durations hc h1
      have e0 : Chrono.limit = 999999999 := rfl
      omega
  rw [← e', h4]
  norm_num [Chrono.limit]

omit [Fl] in
/-- The program with a class measures calls that are faster than the resolution of the clock: every duration is zero, and it prints 999999.999
microseconds, almost a second. -/
theorem C72_coarse {ds : List ℤ} (h : ∀ d ∈ ds, d = 0) : ((ds.foldl Chrono.keepPos Chrono.limit : ℤ) : ℚ) / 1000 = 999999999 / 1000 := by
  have e : ds.foldl Chrono.keepPos Chrono.limit = Chrono.limit := by
    obtain ⟨h1, h2, -⟩ := Chrono.fold_keepPos ds (m := Chrono.limit) (by unfold Chrono.limit; omega) (le_refl _)
    rcases h1 with h1 | h1
    · exact h1
    · have := h _ h1
      omega
  rw [e]
  norm_num [Chrono.limit]

/-- The same for the program. -/
theorem C72_class_fails (h : Describes y c) (hj : JointsOk c) {name : String} {g : Robot} (e : robotFromFile name (some y) true = .ok g) (clk : ℕ → ℤ)
    (hc : ∀ k, clk (2 * k + 1) = clk (2 * k)) : ∃ l, Chrono.mainClass clk g (some y) = .printed l ∧ l.length = 7 ∧ ∀ x ∈ l, x.time = 999999999 / 1000 := by
  obtain ⟨g₀, e₀, hd₀⟩ := fromFile_ok h hj.1 (typed_of hj) (robotName_of_ok h e)
  obtain rfl : g₀ = g := by rw [e] at e₀; cases e₀; rfl
  obtain ⟨o, e1, hl, hm⟩ := chrono_loaded h
  have hf : SameForm c c := Spec.SameForm.retuned (retuned_refl c)
  obtain ⟨l, h1, -, h3, -, -⟩ := chrono_class (c := over c c) ⟨⟨c, h, hj, retuned_over c c⟩, ⟨name, e⟩, hl.over hf
    (s := onesState (over c c)) ⟨hm.q, hm.dq, hm.ddq, hm.d3q, hm.dqr, hm.ddqr, hm.w, hm.x, hm.dx, hm.ddx⟩⟩ (by rw [Wrap.cfgOf_fixed hd₀.toFixed]; exact e1) clk
  refine ⟨l, h1, by simpa using congrArg List.length h3, fun x hx => ?_⟩
  have : x.time ∈ (List.range 7).map (fun i => (((durations clk (2 + 20000 * i) 10000).foldl Chrono.keepPos Chrono.limit : ℤ) : ℚ) / 1000) := by
    rw [← h3]
    exact List.mem_map_of_mem hx
  obtain ⟨i, -, e'⟩ := List.mem_map.1 this
  rw [← e']
  refine C72_coarse fun d hd => ?_
  rw [show 2 + 20000 * i = 2 * (1 + 10000 * i) by ring] at hd
  exact mem_durations (d := 0) (fun k => by rw [hc, sub_self]) hd

/-! ## All robots -/

theorem robots_cons (clk : ℕ → ℤ) (files : String → Option Yaml) (name : String) (l : List String) (t : ℕ) : Chrono.robots clk files (name :: l) t =
    match Chrono.one clk name (files ("../robots/testRobots/" ++ name ++ ".yaml")) t with
    | .inr e => ([], e)
    | .inl p => (p :: (Chrono.robots clk files l (t + Chrono.perRobot)).1, (Chrono.robots clk files l (t + Chrono.perRobot)).2) := rfl

/-- What the program with robots prints for a list of robots whose files are well formed: a report for each, in order. -/
theorem C72_robots {files : String → Option Yaml} (clk : ℕ → ℤ) : ∀ (l : List (String × Conf)) (rest : List String) (t : ℕ),
    (∀ p ∈ l, RobotName p.1 ∧ JointsOk p.2 ∧ ∃ y, files ("../robots/testRobots/" ++ p.1 ++ ".yaml") = some y ∧ Describes y p.2) →
    ∃ out : List Chrono.Report, out.map Chrono.Report.name = l.map Prod.fst ∧
      Chrono.robots clk files (l.map Prod.fst ++ rest) t = (out ++ (Chrono.robots clk files rest (t + Chrono.perRobot * l.length)).1,
        (Chrono.robots clk files rest (t + Chrono.perRobot * l.length)).2) ∧
      List.Forall₂ (fun p r => Chrono.Line.heading <$> r.lines = chronoHeadings ∧ (UnitNumeric p.2 → Computes p.2 100 r.lines)) l out
  | [], rest, t, _ => ⟨[], rfl, rfl, .nil⟩
  | (name, c) :: l, rest, t, h => by
    obtain ⟨hn, hj, y, hy, hd⟩ := h (name, c) List.mem_cons_self
    obtain ⟨p, e, h1, h2, -, h3⟩ := C72_robot hd hj hn clk t
    obtain ⟨out, i1, i2, i3⟩ := C72_robots (files := files) clk l rest (t + Chrono.perRobot) fun p hp => h p (List.mem_cons_of_mem _ hp)
    refine ⟨p :: out, by rw [List.map_cons, List.map_cons, h1, i1], ?_, .cons ⟨h2, h3⟩ i3⟩
    show Chrono.robots clk files (name :: (l.map Prod.fst ++ rest)) t = _
    rw [robots_cons, show files ("../robots/testRobots/" ++ name ++ ".yaml") = some y from hy, e, List.length_cons,
      show t + Chrono.perRobot * (l.length + 1) = t + Chrono.perRobot + Chrono.perRobot * l.length by ring]
    dsimp only
    rw [i2]
    rfl

/-- The robots of the program. -/
def Spec.chronoRobots : List (String × Conf) := [("R3", Ship.R3C), ("R5", Ship.R5C), ("R7", Ship.R7C), ("R9", Ship.R9C)]

omit [Fl] in
theorem chrono_names : ∀ p ∈ chronoRobots, RobotName p.1 := by
  have a : ∀ n ∈ ["R3", "R5", "R7", "R9"], RobotName n := by
    intro n hn
    simp only [List.mem_cons, List.not_mem_nil, or_false] at hn
    rcases hn with rfl | rfl | rfl | rfl <;> exact robotName_of_check (f := "M") (by decide +kernel)
  exact fun p hp => a _ (List.mem_map_of_mem (f := Prod.fst) hp)

/-- The files of the repository under the paths of the program. -/
def Spec.HasFiles (files : String → Option Yaml) : Prop :=
  files "../robots/testRobots/R3.yaml" = some Thunder.Ship.R3 ∧ files "../robots/testRobots/R5.yaml" = some Thunder.Ship.R5 ∧
    files "../robots/testRobots/R7.yaml" = some Thunder.Ship.R7 ∧ files "../robots/testRobots/R9.yaml" = some Thunder.Ship.R9

omit [Fl] in
theorem chrono_files {files : String → Option Yaml} (h : HasFiles files) :
    ∀ p ∈ chronoRobots, RobotName p.1 ∧ JointsOk p.2 ∧ ∃ y, files ("../robots/testRobots/" ++ p.1 ++ ".yaml") = some y ∧ Describes y p.2 := by
  intro p hp
  refine ⟨chrono_names p hp, ?_⟩
  simp only [chronoRobots, List.mem_cons, List.not_mem_nil, or_false] at hp
  rcases hp with rfl | rfl | rfl | rfl
  · exact ⟨sound_R3.joints, _, h.1, sound_R3.describes⟩
  · exact ⟨sound_R5.joints, _, h.2.1, sound_R5.describes⟩
  · exact ⟨sound_R7.joints, _, h.2.2.1, sound_R7.describes⟩
  · exact ⟨sound_R9.joints, _, h.2.2.2, sound_R9.describes⟩

/-- C72 with the files of the repository: the program with robots finishes with four reports, and every call computes the matrix of the mechanism. -/
theorem C72_shipped (hR : RightAngles) {files : String → Option Yaml} (h : HasFiles files) (clk : ℕ → ℤ) : ∃ out : List Chrono.Report,
    Chrono.main clk files = (out, .finished) ∧ out.map Chrono.Report.name = ["R3", "R5", "R7", "R9"] ∧
    List.Forall₂ (fun p r => Chrono.Line.heading <$> r.lines = chronoHeadings ∧ Computes p.2 100 r.lines) chronoRobots out := by
  obtain ⟨out, h1, h2, h3⟩ := C72_robots clk chronoRobots [] 0 (chrono_files h)
  refine ⟨out, ?_, h1, ?_⟩
  · unfold Chrono.main
    rw [show ["R3", "R5", "R7", "R9"] = chronoRobots.map Prod.fst ++ [] from rfl, h2]
    simp [Chrono.robots]
  · have hU : ∀ p ∈ chronoRobots, UnitNumeric p.2 := by
      intro p hp
      simp only [chronoRobots, List.mem_cons, List.not_mem_nil, or_false] at hp
      rcases hp with rfl | rfl | rfl | rfl
      · exact unit_R3 hR
      · exact unit_R5 hR
      · exact unit_R7 hR
      · exact unit_R9 hR
    have : ∀ {l : List (String × Conf)} {o : List Chrono.Report}, (∀ p ∈ l, UnitNumeric p.2) →
        List.Forall₂ (fun p r => Chrono.Line.heading <$> r.lines = chronoHeadings ∧ (UnitNumeric p.2 → Computes p.2 100 r.lines)) l o →
        List.Forall₂ (fun p r => Chrono.Line.heading <$> r.lines = chronoHeadings ∧ Computes p.2 100 r.lines) l o := by
      intro l o hl hf
      induction hf with
      | nil => exact .nil
      | cons a b ih => exact .cons ⟨a.1, a.2 (hl _ List.mem_cons_self)⟩ (ih fun p hp => hl p (List.mem_cons_of_mem _ hp))
    exact this hU h3

/-- The entry of the list that is commented out, `R15`: with it the program would end with an uncaught exception after the four reports. -/
theorem C72_R15 {files : String → Option Yaml} (h : HasFiles files) (h15 : files "../robots/testRobots/R15.yaml" = some Thunder.Ship.R15) (clk : ℕ → ℤ) :
    ∃ out : List Chrono.Report, Chrono.robots clk files ["R3", "R5", "R7", "R9", "R15"] 0 = (out, .thrown) ∧ out.map Chrono.Report.name = ["R3", "R5", "R7", "R9"] := by
  obtain ⟨out, h1, h2, -⟩ := C72_robots clk chronoRobots ["R15"] 0 (chrono_files h)
  refine ⟨out, ?_, h1⟩
  have e : ∀ t, Chrono.robots clk files ["R15"] t = ([], .thrown) := by
    intro t
    unfold Chrono.robots Chrono.one
    rw [show files ("../robots/testRobots/" ++ "R15" ++ ".yaml") = some Thunder.Ship.R15 from h15, (C65_old Ex.noKin_R15 "R15").1]
  rw [e] at h2
  rw [show ["R3", "R5", "R7", "R9", "R15"] = chronoRobots.map Prod.fst ++ ["R15"] from rfl, h2, List.append_nil]

/-- Without the first file nothing is reported, and the behaviour is undefined (C38). -/
theorem C72_nofile {files : String → Option Yaml} (h : files "../robots/testRobots/R3.yaml" = none) (clk : ℕ → ℤ) : Chrono.main clk files = ([], .undef) := by
  unfold Chrono.main Chrono.robots Chrono.one robotFromFile
  rw [show files ("../robots/testRobots/" ++ "R3" ++ ".yaml") = none from h, C38_fails]

/-! ## Instances of the hypotheses -/

namespace Ex

/-- A clock that meets the hypotheses of `C72_partial`, and one that meets those of `C72_fails`. -/
example : (Monotone (fun k : ℕ => (500 * k : ℤ)) ∧ ∀ t i : ℕ, ∃ k < 100, (500 * (t + 4 + 200 * i + 2 * k + 1 : ℕ) : ℤ) - 500 * (t + 4 + 200 * i + 2 * k : ℕ) < 10 ^ 9) ∧
    ∀ k : ℕ, (2000000000 * (2 * k + 1 : ℕ) : ℤ) - 2000000000 * (2 * k : ℕ) = 2000000000 :=
  ⟨⟨fun a b h => by dsimp only; omega, fun t i => ⟨0, by omega, by push_cast; omega⟩⟩, fun k => by push_cast; omega⟩

/-- A clock with a resolution of one millisecond that is read every microsecond meets the hypothesis of `C72_class_fails` for the first calls; one that
stands still meets it for all. -/
example : (∀ k < 499, ((2 * k + 1 : ℕ) : ℤ) / 1000 = ((2 * k : ℕ) : ℤ) / 1000) ∧ ∀ k : ℕ, (fun _ : ℕ => (7 : ℤ)) (2 * k + 1) = (fun _ : ℕ => (7 : ℤ)) (2 * k) :=
  ⟨fun k hk => by omega, fun _ => rfl⟩

/-- The hypothesis of `C72_iff` on the clock is needed: set back by three seconds during a call, the duration does not fit into an `int`, and the time kept is
more than a second. -/
example : Chrono.keep Chrono.limit (-3000000000) = 1294967296 := by decide

/-- Files and names as in `C72_robots`. -/
example : ∃ files, HasFiles files ∧ files "../robots/testRobots/R15.yaml" = some Thunder.Ship.R15 :=
  ⟨fun p => if p = "../robots/testRobots/R3.yaml" then some Thunder.Ship.R3 else if p = "../robots/testRobots/R5.yaml" then some Thunder.Ship.R5 else
    if p = "../robots/testRobots/R7.yaml" then some Thunder.Ship.R7 else if p = "../robots/testRobots/R9.yaml" then some Thunder.Ship.R9 else some Thunder.Ship.R15,
    ⟨rfl, rfl, rfl, rfl⟩, rfl⟩

/-- A file for `C72_robot` and a class for `C72_class`. -/
example : Describes Thunder.Ship.R3 Spec.Ship.R3C ∧ JointsOk Spec.Ship.R3C ∧ RobotName "R3" ∧ SameForm Spec.Ship.R3C Spec.Ship.R3C :=
  ⟨sound_R3.describes, sound_R3.joints, robotName_of_check (f := "M") (by decide +kernel), Spec.SameForm.retuned (retuned_refl _)⟩

end Ex

end

end Thunder
