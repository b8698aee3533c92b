import Verif.Lemmas.TestMain
import Verif.Props.Shipped
import Verif.Props.Config

/-!
# The program `thunder_test`: C69
-/

open scoped Classical
open Matrix

namespace Thunder

noncomputable section

open Spec Robot Act

variable [Fl] {y : Yaml} {c : Conf}

omit [Fl] in
/-- No heading is printed twice. -/
theorem C69_headings (c : Conf) : (headings c).Nodup := by
  unfold headings
  split_ifs <;> decide

/-- C69: the program prints unless joints are of an elastic type in a file without an elastic model; then it ends with an exception that is not caught,
before the first function is evaluated. -/
theorem C69_iff (h : Describes y c) (hj : JointsOk c) :
    ((∃ out, Test.main (some y) = .printed out) ↔ (c.elastic = true ∨ c.ne = 0)) ∧ (Test.main (some y) = .thrown ↔ ¬ (c.elastic = true ∨ c.ne = 0)) := by
  by_cases hx : c.elastic = true ∨ c.ne = 0
  · obtain ⟨out, r, e, -⟩ := test_ran h hj hx
    exact ⟨⟨fun _ => hx, fun _ => ⟨out, e⟩⟩, ⟨fun h' => by rw [e] at h'; exact absurd h' (by simp), fun h' => absurd hx h'⟩⟩
  · have e := test_thrown h hj (by rw [not_or] at hx; simpa using hx.1) (by rw [not_or] at hx; omega)
    refine ⟨⟨fun ⟨out, h'⟩ => ?_, fun h' => absurd h' hx⟩, fun _ => hx, fun _ => e⟩
    rw [e] at h'
    cases h'

/-- C69 without the file: undefined behaviour in the constructor (`C38_fails`). -/
theorem C69_nofile : Test.main none = .undef := by
  unfold Test.main robotFromFile
  rw [C38_fails]

/-- C69: under each heading for a function is printed what `get` answers for a robot built from the file, with all joint coordinates one and all other
variables zero. -/
theorem C69_functions (h : Describes y c) (hj : JointsOk c) {out : List (String × Mat)} (e : Test.main (some y) = .printed out) :
    out.map Prod.fst = headings c ∧ ∀ p ∈ answersOf c, ∃ r m, Running y c (testState c) r ∧ answers r p.2 m ∧ shows out p.1 m := by
  obtain ⟨out', r, e', -, -, -, ho⟩ := test_ran h hj ((C69_iff h hj).1.1 ⟨out, e⟩)
  obtain rfl : out' = out := by rw [e] at e'; cases e'; rfl
  refine ⟨ho.heads, fun p hp => ?_⟩
  obtain ⟨m, h1, r', h2, h3⟩ := ho.funs p hp
  exact ⟨r', m, h2, h3, h1⟩

/-- C69 for files with an elastic model or without elastic joints, as far as it holds.  Not claimed, because false (`C69_fails`): the table of the
kinematic parameters under `par_DHtable`, and `par_DYN` when an inertial parameter is not symbolic. -/
theorem C69_partial (h : Describes y c) (hj : JointsOk c) (hx : c.elastic = true ∨ c.ne = 0) (hU : UnitNumeric c) :
    ∃ out, Test.main (some y) = .printed out ∧ out.map Prod.fst = headings c ∧
      shows out "par_REG" (printRow (nums (10 * c.n) (reg c.dyn))) ∧
      ((∀ i < 10 * c.n, c.fdyn i ≠ 0) → shows out "par_DYN" (printRow (nums (10 * c.n) c.dyn))) ∧
      (0 < c.dlO → shows out "par_Dl" (printRow (symbolics (c.n * c.dlO) c.fdl c.dl))) ∧
      (c.elastic = true → shows out "par_K" (printRow (symbolics (c.ne * c.kO) c.fK c.K)) ∧ shows out "par_D" (printRow (symbolics (c.ne * c.dO) c.fD c.D)) ∧
        shows out "par_Dm" (printRow (symbolics (c.ne * c.dmO) c.fDm c.Dm)) ∧ shows out "par_Mm" (printRow (symbolics c.ne c.fMm c.Mm))) ∧
      Returns (shows out) "Kin_ee" (toolFrame c fun _ => 1) ∧
      (∀ i ≤ 3, i ≤ c.n → Returns (shows out) ("Kin" ++ toString i) (linkFrame c (fun _ => 1) i)) ∧
      Returns (shows out) "Jac" (jacobianOf (toolFrame c) fun _ => 1) ∧
      (∀ i < 3, i < c.n → Returns (shows out) ("Jac" ++ toString (i + 1)) (jacobianOf (fun q => linkFrame c q (i + 1)) fun _ => 1)) ∧
      Returns (shows out) "M" (massOf c fun _ => 1) ∧ Returns (shows out) "C" (0 : Matrix (Fin c.n) (Fin c.n) ℝ) ∧
      Returns (shows out) "C_std" (0 : Matrix (Fin c.n) (Fin c.n) ℝ) ∧ ReturnsVec (shows out) "G" (gravityOf c fun _ => 1) ∧
      (0 < c.dlO → ReturnsVec (shows out) "D_link" (frictionOf c c.dl 0)) ∧
      (c.elastic = true → (0 < c.kO → ReturnsVec (shows out) "K" (springOf c c.K (fun _ => 1) 0)) ∧
        (0 < c.dO → ReturnsVec (shows out) "D_coupling" (damperOf c c.D 0 0)) ∧ (0 < c.dmO → ReturnsVec (shows out) "D_motor" (motorFrictionOf c c.Dm 0)) ∧
        Returns (shows out) "M_motor" (gains c.ne 1 0 c.Mm)) ∧
      ReturnsVec (shows out) "err_dyn_reg" (0 : Fin c.n → ℝ) := by
  obtain ⟨out, r, e, hd, hl, hreg, ho⟩ := test_ran h hj hx
  have ret : ∀ {l f : String} {a b : ℕ} {A : Matrix (Fin a) (Fin b) ℝ}, (l, f) ∈ answersOf c → (∀ R, Source y c (testState c) R → Returns R f A) →
      Returns (shows out) l A := by
    intro l f a b A hm hA
    obtain ⟨m, h1, h2⟩ := ho.funs _ hm
    obtain ⟨g1, g2, g3, g4⟩ := h2.is hA
    exact ⟨m, h1, g1, g2, g3, g4⟩
  have front : ∀ {p : String × String}, p ∈ [("Kin_ee", "T_0_ee"), ("Kin0", "T_0_0"), ("Kin1", "T_0_1"), ("Kin2", "T_0_2"), ("Kin3", "T_0_3"), ("Jac", "J_ee"),
      ("Jac1", "J_1"), ("Jac2", "J_2"), ("Jac3", "J_3"), ("M", "M"), ("C", "C"), ("C_std", "C_std"), ("G", "G")] → p ∈ answersOf c := fun hp =>
    List.mem_append_left _ (List.mem_append_left _ hp)
  have cz : coriolisOf c (testState c).q (testState c).dq = 0 := by
    ext i j
    simp [coriolisOf, testState, christoffel]
  have hdl : ∀ {p : String × String}, 0 < c.dlO → p ∈ [("D_link", "dl"), ("reg_Dl", "reg_dl")] → p ∈ answersOf c := fun h0 hp =>
    List.mem_append_left _ (List.mem_append_right _ (by rwa [if_pos h0]))
  have hel : ∀ {p : String × String}, c.elastic = true → p ∈ [("K", "k"), ("D_coupling", "d"), ("D_motor", "dm"), ("M_motor", "Mm"), ("reg_K", "reg_k"),
      ("reg_Dm", "reg_dm"), ("reg_D", "reg_d"), ("reg_Mm", "reg_Mm")] → p ∈ answersOf c := fun h0 hp => List.mem_append_right _ (by rwa [if_pos h0])
  refine ⟨out, e, ho.heads, ?_, fun hs => ?_, fun h0 => ?_, fun he => ⟨?_, ?_, ?_, ?_⟩, ?_, fun i h3 hi => ?_, ?_, fun i h3 hi => ?_, ?_, ?_, ?_, ?_,
    fun h0 => ?_, fun he => ⟨fun h0 => ?_, fun h0 => ?_, fun h0 => ?_, ?_⟩, ?_⟩
  · have := ho.pars "par_REG" (by simp)
    have er : r.arg "par_REG" = nums (10 * c.n) (reg c.dyn) := by
      refine List.ext_getElem? fun i => ?_
      by_cases hi : i < 10 * c.n
      · rw [(reg_is hl hreg).1 ⟨i, hi⟩]
        simp [nums, hi]
      · rw [List.getElem?_eq_none (by omega), List.getElem?_eq_none (by simp [nums]; omega)]
    rwa [er] at this
  · have := ho.dyn
    have es : symbolics (10 * c.n) c.fdyn c.dyn = nums (10 * c.n) c.dyn := by
      unfold symbolics nums
      rw [List.filter_eq_self.2 fun i hi => by simpa using hs i (List.mem_range.1 hi)]
    rw [es, show 10 * c.n - (nums (10 * c.n) c.dyn).length = 0 by simp [nums]] at this
    simpa using this
  · have := ho.pars "par_Dl" (by simp)
    rwa [show r.arg "par_Dl" = symbolics (c.n * c.dlO) c.fdl c.dl from hd.arg .Dl] at this
  · have := ho.pars "par_K" (by simp)
    rwa [show r.arg "par_K" = symbolics (Key.K.size c) c.fK c.K from hd.arg .K, size_K he] at this
  · have := ho.pars "par_D" (by simp)
    rwa [show r.arg "par_D" = symbolics (Key.D.size c) c.fD c.D from hd.arg .D, size_D he] at this
  · have := ho.pars "par_Dm" (by simp)
    rwa [show r.arg "par_Dm" = symbolics (Key.Dm.size c) c.fDm c.Dm from hd.arg .Dm, size_Dm he] at this
  · have := ho.pars "par_Mm" (by simp)
    rwa [show r.arg "par_Mm" = symbolics (Key.Mm.size c) c.fMm c.Mm from hd.arg .Mm, size_Mm he] at this
  · exact ret (front (by simp)) fun R hR => (C56_frames hR).2.2.2.2
  · refine ret (f := "T_0_" ++ toString i) (front ?_) fun R hR => (C56_frames hR).2.2.1 i hi
    rcases (show i = 0 ∨ i = 1 ∨ i = 2 ∨ i = 3 by omega) with rfl | rfl | rfl | rfl <;> decide
  · exact ret (front (by simp)) fun R hR => (C57_jacobians hR hU).2.2
  · refine ret (f := "J_" ++ toString (i + 1)) (front ?_) fun R hR => (C57_jacobians hR hU).1 i hi
    rcases (show i = 0 ∨ i = 1 ∨ i = 2 by omega) with rfl | rfl | rfl <;> decide
  · exact ret (front (by simp)) fun R hR => (C58_matrices hR hU).1
  · exact ret (front (by simp)) fun R hR => cz ▸ (C58_matrices hR hU).2.1
  · exact ret (front (by simp)) fun R hR => cz ▸ (C58_matrices hR hU).2.2.1
  · exact ret (front (by simp)) fun R hR => (C58_matrices hR hU).2.2.2
  · exact ret (hdl h0 (by simp)) fun R hR => (C60_link hR h0).1
  · exact ret (hel he (by simp)) fun R hR => (C60_elastic hR he).1 h0
  · exact ret (hel he (by simp)) fun R hR => (C60_elastic hR he).2.2.1 h0
  · exact ret (hel he (by simp)) fun R hR => (C60_elastic hR he).2.2.2.2.1 h0
  · exact ret (hel he (by simp)) fun R hR => (C60_elastic hR he).2.2.2.2.2.2
  · obtain ⟨M, C, G, Y, x, hM, hC, hG, ⟨rY, hrY, hY⟩, hres, hsh⟩ := ho.err
    obtain ⟨Z, _, _, _, hZ, -, -, -, -, hp⟩ := C59_inertial (.robot hrY) hU
    have iM := hM.is fun R hR => (C58_matrices hR hU).1
    have iC := hC.is fun R hR => (C58_matrices hR hU).2.1
    have iG := hG.is fun R hR => (C58_matrices hR hU).2.2.2
    have iY : Test.Is Y Z := by
      obtain ⟨m', ⟨r₂, e₂⟩, h1, h2, h3, h4⟩ := hZ
      obtain ⟨r₁, e₁⟩ := hY
      rw [e₁] at e₂
      obtain rfl := (Res.ok.inj e₂).1
      exact ⟨h1, h2, h3, h4⟩
    obtain ⟨x', hx', g⟩ := Test.residual_is iM iC iG iY (zero_is c.n) (zero_is c.n) (reg_is hl hreg).2
    obtain rfl : x = x' := by rw [hres] at hx'; exact Option.some.inj hx'
    obtain ⟨g1, g2, g3, g4⟩ := g
    refine ⟨x, hsh, g1, g2, g3, fun i j => ?_⟩
    have e0 : (fun _ : Fin c.n => (0 : ℝ)) = 0 := rfl
    have e1 : Z *ᵥ (fun k => reg c.dyn k) = gravityOf c (testState c).q := (hp c.dyn).2.2.2.trans (by
      show massOf c _ *ᵥ (0 : Fin c.n → ℝ) + coriolisOf c _ _ *ᵥ (0 : Fin c.n → ℝ) + gravityOf c _ = _
      rw [mulVec_zero, mulVec_zero, zero_add, zero_add])
    rw [g4 i j, e0, e1, mulVec_zero, mulVec_zero, zero_add, zero_add, sub_self]

/-- C69 is false: under `par_DHtable` a single zero is printed whatever the file says (there is no function of this name); the same is printed in place of
the friction and elastic terms that the robot does not have; and when an inertial parameter is not symbolic the vector under `par_DYN` has entries that
were never written. -/
theorem C69_fails (h : Describes y c) (hj : JointsOk c) {out : List (String × Mat)} (e : Test.main (some y) = .printed out) :
    shows out "par_DHtable" ⟨1, 1, [some 0]⟩ ∧ (∀ p ∈ answersOf c, p.2 ∉ library c → shows out p.1 ⟨1, 1, [some 0]⟩) ∧
      (∀ i < 10 * c.n, c.fdyn i = 0 → ∃ m, shows out "par_DYN" m ∧ none ∈ m.data) := by
  obtain ⟨out', r, e', -, -, -, ho⟩ := test_ran h hj ((C69_iff h hj).1.1 ⟨out, e⟩)
  obtain rfl : out' = out := by rw [e] at e'; cases e'; rfl
  refine ⟨ho.dh, fun p hp hf => ?_, fun i hi h0 => ⟨_, ho.dyn, ?_⟩⟩
  · obtain ⟨m, h1, h2⟩ := ho.funs p hp
    exact h2.unknown hf ▸ h1
  have : (symbolics (10 * c.n) c.fdyn c.dyn).length < 10 * c.n := by
    unfold symbolics
    rw [List.length_map]
    have := List.length_filter_lt_length_iff_exists (p := fun i => decide (c.fdyn i ≠ 0)) (l := List.range (10 * c.n))
    rw [List.length_range] at this
    exact this.2 ⟨i, List.mem_range.2 hi, by simp [h0]⟩
  unfold printRow
  refine List.mem_append_right _ ?_
  rw [List.mem_replicate]
  exact ⟨by omega, rfl⟩

omit [Fl] in
/-- The last check of the program says nothing about the matrices `M` and `C`: with the accelerations and velocities it uses, the difference is the same for
all matrices of the same size. -/
theorem C69_blind {n k : ℕ} {M C M' C' G Y : Mat} {A B A' B' : Matrix (Fin n) (Fin n) ℝ} {g : Fin n → ℝ} {Z : Matrix (Fin n) (Fin k) ℝ}
    (hM : Returns (fun (_ : String) => (M = ·)) "M" A) (hC : Returns (fun (_ : String) => (C = ·)) "C" B) (hM' : Returns (fun (_ : String) => (M' = ·)) "M" A')
    (hC' : Returns (fun (_ : String) => (C' = ·)) "C" B') (hG : ReturnsVec (fun (_ : String) => (G = ·)) "G" g) (hY : Returns (fun (_ : String) => (Y = ·)) "Yr" Z)
    (p : Fin k → ℝ) : Test.residual M C G Y (List.replicate n (some 0)) (List.replicate n (some 0)) (stored p) =
      Test.residual M' C' G Y (List.replicate n (some 0)) (List.replicate n (some 0)) (stored p) := by
  have is : ∀ {m : Mat} {f : String} {a b : ℕ} {A : Matrix (Fin a) (Fin b) ℝ}, Returns (fun (_ : String) => (m = ·)) f A → Test.Is m A := by
    rintro m f a b A ⟨m', rfl, h1, h2, h3, h4⟩
    exact ⟨h1, h2, h3, h4⟩
  have hp : Test.Is (.col (stored p)) (Matrix.of fun i (_ : Fin 1) => p i) := Test.col_is (by simp [stored]) fun i => by simp [stored]
  obtain ⟨e₁, h₁, a1, a2, a3, a4⟩ := Test.residual_is (is hM) (is hC) (is hG) (is hY) (zero_is n) (zero_is n) hp
  obtain ⟨e₂, h₂, b1, b2, b3, b4⟩ := Test.residual_is (is hM') (is hC') (is hG) (is hY) (zero_is n) (zero_is n) hp
  rw [h₁, h₂]
  congr 1
  obtain ⟨r₁, c₁, d₁⟩ := e₁
  obtain ⟨r₂, c₂, d₂⟩ := e₂
  simp only at a1 a2 a3 a4 b1 b2 b3 b4
  subst a1 a2 b1 b2
  congr 1
  refine List.ext_getElem? fun i => ?_
  by_cases hi : i < r₂ * 1
  · have h1 := a4 ⟨i, by omega⟩ 0
    have h2 := b4 ⟨i, by omega⟩ 0
    have e0 : (fun _ : Fin r₂ => (0 : ℝ)) = 0 := rfl
    simp only [Fin.val_zero, Nat.mul_zero, Nat.add_zero, e0, mulVec_zero] at h1 h2
    rw [h1, h2]
  · rw [List.getElem?_eq_none (by omega), List.getElem?_eq_none (by omega)]

/-- C69 for the file named in the program, `seaRRR.yaml`: the program prints, the last check gives zero, no entry under `par_DYN` was ever written, and six
more headings have a single zero because the robot has no such functions. -/
theorem C69_sea (h : RightAngles) : ∃ out, Test.main (some Ship.seaRRR) = .printed out ∧ ReturnsVec (shows out) "err_dyn_reg" (0 : Fin 3 → ℝ) ∧
    shows out "par_DHtable" ⟨1, 1, [some 0]⟩ ∧ shows out "par_DYN" (printRow (List.replicate 30 none)) ∧
    ∀ l ∈ ["reg_Dl", "D_coupling", "reg_K", "reg_Dm", "reg_D", "reg_Mm"], shows out l ⟨1, 1, [some 0]⟩ := by
  have hs := sound_seaRRR
  obtain ⟨out, e, h1⟩ := C69_partial hs.describes hs.joints (.inl rfl) (unit_seaRRR h)
  obtain ⟨out', r, e', -, -, -, ho⟩ := test_ran hs.describes hs.joints (.inl rfl)
  obtain rfl : out' = out := by rw [e] at e'; cases e'; rfl
  refine ⟨out', e, h1.2.2.2.2.2.2.2.2.2.2.2.2.2.2.2, ho.dh, ?_, fun l hl => ?_⟩
  rotate_left
  · have hf := (C69_fails hs.describes hs.joints e).2.1
    have hlib : library Spec.Ship.seaRRRC = kinNames 3 ++ dynNames 3 ++ ["dl", "Dl1", "Dl2", "k", "K1", "dm", "Dm1", "Mm"] := by
      have a : ∀ {m : ℕ} {f : ℕ → ℤ}, (∀ i < m, f i = 0) → ¬ anySet m f := fun h ⟨i, hi, h0⟩ => h0 (h i hi)
      have a1 : ¬ (anySet (4 * Spec.Ship.seaRRRC.n) Spec.Ship.seaRRRC.fdh ∨ anySet 6 Spec.Ship.seaRRRC.fw2l ∨ anySet 6 Spec.Ship.seaRRRC.fee) :=
        not_or.2 ⟨a (by decide), not_or.2 ⟨a (by decide), a (by decide)⟩⟩
      unfold library elaNames onlyIf
      rw [if_neg a1, if_pos (by decide), if_neg (a (by decide)), if_pos (show Spec.Ship.seaRRRC.elastic = true from rfl), if_pos (by decide), if_neg (by decide), if_pos (by decide), if_neg (a (by decide)),
        if_neg (a (by decide)), if_neg (a (by decide)), if_neg (a (by decide))]
      decide
    simp only [List.mem_cons, List.not_mem_nil, or_false] at hl
    rcases hl with rfl | rfl | rfl | rfl | rfl | rfl
    · exact hf ("reg_Dl", "reg_dl") (by decide) (by rw [hlib]; decide)
    · exact hf ("D_coupling", "d") (by decide) (by rw [hlib]; decide)
    · exact hf ("reg_K", "reg_k") (by decide) (by rw [hlib]; decide)
    · exact hf ("reg_Dm", "reg_dm") (by decide) (by rw [hlib]; decide)
    · exact hf ("reg_D", "reg_d") (by decide) (by rw [hlib]; decide)
    · exact hf ("reg_Mm", "reg_Mm") (by decide) (by rw [hlib]; decide)
  have := ho.dyn
  have es : symbolics (10 * Spec.Ship.seaRRRC.n) Spec.Ship.seaRRRC.fdyn Spec.Ship.seaRRRC.dyn = [] := by
    unfold symbolics
    have h0 : ∀ i < 30, Spec.Ship.seaRRRC.fdyn i = 0 := by decide
    rw [List.filter_eq_nil_iff.2 fun i hi => by simp [h0 i (List.mem_range.1 hi)]]
    rfl
  rw [es] at this
  exact this

/-! ## Instances of the hypotheses -/

namespace Ex

/-- Files for which the program prints, and one for which it does not. -/
example : (Describes Ship.seaRRR Spec.Ship.seaRRRC ∧ JointsOk Spec.Ship.seaRRRC ∧ Spec.Ship.seaRRRC.elastic = true) ∧
    (Describes goodConf (oneLink "R") ∧ JointsOk (oneLink "R") ∧ (oneLink "R").ne = 0) ∧
    ∃ y, Describes y (oneLink "R_SEA") ∧ JointsOk (oneLink "R_SEA") ∧ (oneLink "R_SEA").elastic = false ∧ 0 < (oneLink "R_SEA").ne :=
  ⟨⟨sound_seaRRR.describes, sound_seaRRR.joints, rfl⟩, ⟨describes_conf "R", by unfold JointsOk; decide, by decide⟩, _, describes_conf "R_SEA", by unfold JointsOk; decide, rfl, by decide⟩

/-- The program throws for a file with an elastic joint and no elastic model. -/
example : @Test.main fl (some (conf ["R_SEA"] [some 0, some 0, some 0] [(some "link1", .map [(some "inertial", inert)])])) = .thrown :=
  (@C69_iff fl _ _ (describes_conf "R_SEA") (by unfold JointsOk; decide)).2.2 (by decide)

/-- The hypothesis of `C69_blind` holds for matrices that differ. -/
example : Returns (fun (_ : String) => ((⟨1, 1, [some 2]⟩ : Mat) = ·)) "M" (Matrix.of fun (_ _ : Fin 1) => (2 : ℝ)) ∧
    Returns (fun (_ : String) => ((⟨1, 1, [some 3]⟩ : Mat) = ·)) "M" (Matrix.of fun (_ _ : Fin 1) => (3 : ℝ)) :=
  ⟨⟨_, rfl, rfl, rfl, rfl, fun i j => by fin_cases i; fin_cases j; rfl⟩, ⟨_, rfl, rfl, rfl, rfl, fun i j => by fin_cases i; fin_cases j; rfl⟩⟩

end Ex

end

end Thunder
