import Verif.Lemmas.Urdf
import Verif.Model.ShippedUrdf
import Verif.Spec.ShippedUrdf

/-!
# C68: inertial parameters from URDF frames to Denavit-Hartenberg frames

The program genYAML (src/genYAML/main_YAML.cpp).  The claim is true for files whose first eight entries are complete and whose bodies are not turned by
angles with `sin yaw · sin roll ≠ 0`.  It is false otherwise: with such angles the inertia written is a wrong one (C50); with fewer than eight bodies the
program reads outside its vector; an entry without origin is left out and the following ones move to other links.
-/

namespace Thunder.Urdf

open Act Spec Matrix Real

/-- The names of the files, in the order of writing. -/
def outputs : List String :=
  ["../generatedFiles/inertial_DH.yaml", "../generatedFiles/inertial_DH_DYN.yaml", "../generatedFiles/inertial_DH_REG.yaml",
    "../generatedFiles/inertial_DH_REG_p2.yaml", "../generatedFiles/inertial_DH_REG_p5.yaml", "../generatedFiles/inertial_DH_REG_p10.yaml",
    "../generatedFiles/inertial_DH_REG_p20.yaml"]

/-- The links computed from the bodies stored. -/
noncomputable def converted (u : ℕ → LinkProp) : List LinkProp := (List.range 7).map fun i => transformBody (shift i) (angles i) (u (i + 1)) fresh

/-- What the program writes, for bodies stored in the first eight places. -/
theorem main_run {scan : String → List Num} {l : List (Option String × Yaml)} {u : ℕ → LinkProp}
    (h : ∀ j < 8, ∃ e, l[j]? = some e ∧ Pushes scan e (u j)) (draw : ℕ → ℕ → ℕ → ℝ) :
    ∃ s, main scan draw (some (.map l)) start = .ok 0 s ∧ s.files = outputs.zip [fill "CoM_" (converted u), fill "CoM_" (converted u),
      fill "m_CoM_" (regLinks draw (converted u) 0), fill "m_CoM_" (regLinks draw (converted u) 1), fill "m_CoM_" (regLinks draw (converted u) 2),
      fill "m_CoM_" (regLinks draw (converted u) 3), fill "m_CoM_" (regLinks draw (converted u) 4)] := by
  obtain ⟨ext, h1⟩ := readFile_prefix h
  have h2 : convert ((List.range 8).map u ++ ext) = some (converted u) := convert_ok (u := u) fun i hi => by
    rw [List.getElem?_append_left (by simp; omega), List.getElem?_map, List.getElem?_range (by omega)]; rfl
  have h3 := bind_ok (x := ofIdx (convert ((List.range 8).map u ++ ext))) (s := (⟨(List.range 8).map u ++ ext, []⟩ : St)) (f := fun dh => (do
    modify fun s => { s with files := s.files ++ [("../generatedFiles/inertial_DH.yaml", fill "CoM_" dh)] }
    modify fun s => { s with files := s.files ++ [("../generatedFiles/inertial_DH_DYN.yaml", fill "CoM_" dh)] }
    modify fun s => { s with files := s.files ++ (List.range 5).map fun w => (regName w, fill "m_CoM_" (regLinks draw dh w)) }
    pure 0 : Act St ℤ)) (by rw [h2]; exact ofIdx_some _ _)
  refine ⟨⟨(List.range 8).map u ++ ext, _⟩, ?_, rfl⟩
  unfold main
  rw [bind_ok h1, bind_ok (read_run _)]
  refine h3.trans ?_
  rfl

/-- What is written for angles of any kind. -/
theorem files_code {scan : String → List Num} {l : List (Option String × Yaml)} {name : ℕ → String} {m : ℕ → ℝ} {c ang : ℕ → Fin 3 → ℝ} {I : ℕ → Fin 6 → ℝ}
    (h : ∀ j < 8, ∃ e, l[j]? = some e ∧ BodyEntry scan e (name j) (m j) (c j) (ang j) (I j))
    (draw : ℕ → ℕ → ℕ → ℝ) :
    ∃ (s : St) (c' : ℕ → Fin 3 → ℝ) (J : ℕ → Fin 6 → ℝ) (D : Yaml) (R : ℕ → Yaml), main scan draw (some (.map l)) start = .ok 0 s ∧ s.files = outputs.zip [D, D, R 0, R 1, R 2, R 3, R 4] ∧
      (∀ i < 7, dhPoint i (c' i) = c (i + 1) ∧ dhTensor i (symm3 (J i)) =
        codeRot (ang (i + 1) 0) (ang (i + 1) 1) (ang (i + 1) 2) * symm3 (I (i + 1)) * (codeRot (ang (i + 1) 0) (ang (i + 1) 1) (ang (i + 1) 2))ᵀ) ∧
      FlatList D 7 (fun i => name (i + 1)) "CoM_" (fun i k => some (tenNumbers (m (i + 1)) (c' i) (symm3 (J i)) k)) ∧
      ∀ w < 5, FlatList (R w) 7 (fun i => name (i + 1)) "m_CoM_" fun i k => some (linPar (m (i + 1) * (1 + draw w i 0))
        (fun j => c' i j * (1 + draw w i (1 + j))) (symm3 fun j => J i j * (1 + draw w i (4 + j))) k) := by
  have ht : ∀ i, ∃ c' J, i < 7 → (transformBody (shift i) (angles i) (bodyOf (name (i + 1)) (m (i + 1)) (c (i + 1)) (ang (i + 1)) (I (i + 1))) fresh).Is
      (m (i + 1)) c' J ∧ dhPoint i c' = c (i + 1) ∧ dhTensor i (symm3 J) =
        codeRot (ang (i + 1) 0) (ang (i + 1) 1) (ang (i + 1) 2) * symm3 (I (i + 1)) * (codeRot (ang (i + 1) 0) (ang (i + 1) 1) (ang (i + 1) 2))ᵀ ∧
      (transformBody (shift i) (angles i) (bodyOf (name (i + 1)) (m (i + 1)) (c (i + 1)) (ang (i + 1)) (I (i + 1))) fresh).name = name (i + 1) := fun i => by
    by_cases hi : i < 7
    · obtain ⟨c', J, h⟩ := transform_code hi (name (i + 1)) (m (i + 1)) (c (i + 1)) (ang (i + 1)) (I (i + 1))
      exact ⟨c', J, fun _ => h⟩
    · exact ⟨0, 0, fun h => absurd h hi⟩
  choose c' J ht using ht
  obtain ⟨s, e, hf⟩ := main_run (u := fun j => bodyOf (name j) (m j) (c j) (ang j) (I j)) (fun j hj => by
    obtain ⟨e, he, hb⟩ := h j hj
    exact ⟨e, he, pushes_of_entry hb⟩) draw
  refine ⟨s, c', J, _, fun w => fill "m_CoM_" (regLinks draw (converted fun j => bodyOf (name j) (m j) (c j) (ang j) (I j)) w), e, hf, fun i hi => ⟨(ht i hi).2.1, (ht i hi).2.2.1⟩, ?_, fun w hw => ?_⟩
  · exact flat_fill (.inr rfl) (by simp [converted]) fun i hi => ⟨_, by simp [converted, hi], (ht i hi).2.2.2, fun k hk => tenOf_is (ht i hi).1 hk⟩
  · refine flat_fill (.inl rfl) (by simp [regLinks, converted]) fun i hi => ⟨regBody (perturb (transformBody (shift i) (angles i)
      (bodyOf (name (i + 1)) (m (i + 1)) (c (i + 1)) (ang (i + 1)) (I (i + 1))) fresh) (draw w i)), by simp [regLinks, converted, hi], (ht i hi).2.2.2, fun k hk => ?_⟩
    exact tenOf_regBody (perturb_is (ht i hi).1 _) hk

/-- C68 for files whose first eight entries are complete: entries 1 to 7 become links 1 to 7.  The first two files give the bodies seen from the
Denavit-Hartenberg frames: mass unchanged, a centre of mass and a tensor that expressed in the URDF frame are those of the entry.  The other files give the linear
parameters of bodies whose ten numbers are multiplied by one plus the numbers drawn. -/
theorem C68_files_partial {scan : String → List Num} {l : List (Option String × Yaml)} {name : ℕ → String} {m : ℕ → ℝ} {c ang : ℕ → Fin 3 → ℝ} {I : ℕ → Fin 6 → ℝ}
    (h : ∀ j < 8, ∃ e, l[j]? = some e ∧ BodyEntry scan e (name j) (m j) (c j) (ang j) (I j)) (ha : ∀ j < 8, sin (ang j 2) * sin (ang j 0) = 0)
    (draw : ℕ → ℕ → ℕ → ℝ) :
    ∃ (s : St) (c' : ℕ → Fin 3 → ℝ) (J : ℕ → Fin 6 → ℝ) (D : Yaml) (R : ℕ → Yaml), main scan draw (some (.map l)) start = .ok 0 s ∧ s.files = outputs.zip [D, D, R 0, R 1, R 2, R 3, R 4] ∧
      (∀ i < 7, dhPoint i (c' i) = c (i + 1) ∧ dhTensor i (symm3 (J i)) =
        rpy (ang (i + 1) 0) (ang (i + 1) 1) (ang (i + 1) 2) * symm3 (I (i + 1)) * (rpy (ang (i + 1) 0) (ang (i + 1) 1) (ang (i + 1) 2))ᵀ) ∧
      FlatList D 7 (fun i => name (i + 1)) "CoM_" (fun i k => some (tenNumbers (m (i + 1)) (c' i) (symm3 (J i)) k)) ∧
      ∀ w < 5, FlatList (R w) 7 (fun i => name (i + 1)) "m_CoM_" fun i k => some (linPar (m (i + 1) * (1 + draw w i 0))
        (fun j => c' i j * (1 + draw w i (1 + j))) (symm3 fun j => J i j * (1 + draw w i (4 + j))) k) := by
  obtain ⟨s, c', J, D, R, e, hf, h1, h2⟩ := files_code h draw
  refine ⟨s, c', J, D, R, e, hf, fun i hi => ?_, h2⟩
  rw [← codeRot_of_zero (ha (i + 1) (by omega))]
  exact h1 i hi

/-- C68: the centre of mass and the tensor in the Denavit-Hartenberg frame are determined by what they are in the URDF frame. -/
theorem C68_determined {i : ℕ} {p q : Fin 3 → ℝ} {J K : Matrix (Fin 3) (Fin 3) ℝ} :
    (dhPoint i p = dhPoint i q → p = q) ∧ (dhTensor i J = dhTensor i K → J = K) := by
  have e : axX (-dhAlpha i) * axX (dhAlpha i) = 1 := by simpa using axX_neg (-dhAlpha i)
  have e' : (axX (dhAlpha i))ᵀ * (axX (-dhAlpha i))ᵀ = 1 := by rw [← transpose_mul, e, transpose_one]
  constructor
  · intro h
    have := congrArg (axX (-dhAlpha i) *ᵥ ·) (add_left_cancel h)
    simpa [mulVec_mulVec, e] using this
  · intro h
    have h1 := congrArg (fun A => axX (-dhAlpha i) * A * (axX (-dhAlpha i))ᵀ) h
    have h2 : ∀ A, axX (-dhAlpha i) * dhTensor i A * (axX (-dhAlpha i))ᵀ = A := fun A => by
      calc _ = (axX (-dhAlpha i) * axX (dhAlpha i)) * A * ((axX (dhAlpha i))ᵀ * (axX (-dhAlpha i))ᵀ) := by simp only [dhTensor, Matrix.mul_assoc]
        _ = A := by rw [e, e', Matrix.one_mul, Matrix.mul_one]
    simpa only [h2] using h1

/-- C68: with no noise drawn for the first file for the regressor, it lists the linear parameters of the bodies that the file for the dynamics lists. -/
theorem C68_regressor_partial {scan : String → List Num} {l : List (Option String × Yaml)} {name : ℕ → String} {m : ℕ → ℝ} {c ang : ℕ → Fin 3 → ℝ} {I : ℕ → Fin 6 → ℝ}
    (h : ∀ j < 8, ∃ e, l[j]? = some e ∧ BodyEntry scan e (name j) (m j) (c j) (ang j) (I j)) (ha : ∀ j < 8, sin (ang j 2) * sin (ang j 0) = 0)
    {draw : ℕ → ℕ → ℕ → ℝ} (h0 : ∀ i k, draw 0 i k = 0) :
    ∃ (s : St) (c' : ℕ → Fin 3 → ℝ) (J : ℕ → Fin 6 → ℝ) (D R : Yaml), main scan draw (some (.map l)) start = .ok 0 s ∧
      ("../generatedFiles/inertial_DH_DYN.yaml", D) ∈ s.files ∧ ("../generatedFiles/inertial_DH_REG.yaml", R) ∈ s.files ∧
      (∀ i < 7, dhPoint i (c' i) = c (i + 1) ∧ dhTensor i (symm3 (J i)) =
        rpy (ang (i + 1) 0) (ang (i + 1) 1) (ang (i + 1) 2) * symm3 (I (i + 1)) * (rpy (ang (i + 1) 0) (ang (i + 1) 1) (ang (i + 1) 2))ᵀ) ∧
      FlatList D 7 (fun i => name (i + 1)) "CoM_" (fun i k => some (tenNumbers (m (i + 1)) (c' i) (symm3 (J i)) k)) ∧
      FlatList R 7 (fun i => name (i + 1)) "m_CoM_" fun i k => some (linPar (m (i + 1)) (c' i) (symm3 (J i)) k) := by
  obtain ⟨s, c', J, D, R, e, hf, h1, h2, h3⟩ := C68_files_partial h ha draw
  have h4 := h3 0 (by decide)
  simp only [h0, add_zero, mul_one] at h4
  exact ⟨s, c', J, D, R 0, e, by rw [hf]; simp [outputs], by rw [hf]; simp [outputs], h1, h2, h4⟩

/-- C68 is false when the file cannot be read or has fewer than eight entries, or entries that are not read: the program reads outside its vector. -/
theorem C68_overrun (scan : String → List Num) (draw : ℕ → ℕ → ℕ → ℝ) (file : Option Yaml) (h : ∀ y, file = some y → y.items.length < 8) :
    main scan draw file start = .ub := by
  obtain ⟨L, h1, h2⟩ := readFile_cases scan file
  have h3 : L.length < 8 := by
    cases file with
    | none => simp at h2; simp [h2]
    | some y => exact lt_of_le_of_lt h2 (h y rfl)
  unfold main
  rw [bind_ok h1, bind_ok (read_run _)]
  exact bind_ub (by rw [convert_short h3]; rfl)

/-- C68: the behaviour is undefined, or all seven files are written and the result is 0, for every file. -/
theorem C68_all_or_ub (scan : String → List Num) (draw : ℕ → ℕ → ℕ → ℝ) (file : Option Yaml) :
    main scan draw file start = .ub ∨ ∃ s, main scan draw file start = .ok 0 s ∧ s.files.map Prod.fst = outputs := by
  obtain ⟨L, h1, -⟩ := readFile_cases scan file
  unfold main
  rw [bind_ok h1, bind_ok (read_run _)]
  cases h2 : convert L with
  | none => exact .inl (bind_ub rfl)
  | some dh =>
    exact .inr ⟨_, bind_ok (show (ofIdx (some dh) : Act St _) ⟨L, []⟩ = .ok dh ⟨L, []⟩ from rfl), rfl⟩

/-- C68 is false when an entry has no angles: the program does the same as if the entry were not in the file, so that the bodies after it are given to other
links. -/
theorem C68_skips {scan : String → List Num} {e : Option String × Yaml} {name : String} {m : ℝ} {I : Fin 6 → ℝ} (h : NoAngles e name m I)
    (draw : ℕ → ℕ → ℕ → ℝ) (l l' : List (Option String × Yaml)) :
    main scan draw (some (.map (l ++ e :: l'))) start = main scan draw (some (.map (l ++ l'))) start := by
  have : readFile scan (some (.map (l ++ e :: l'))) = readFile scan (some (.map (l ++ l'))) := by
    funext s
    unfold readFile tryYaml
    rw [bind_ok (ofYaml_some _ _), bind_ok (ofYaml_some _ _)]
    simp only [Yaml.items, loop_skip (scan := scan) (skips_of_entry h)]
  unfold main
  rw [this]

/-- C68 is false for bodies turned by angles in general: a rod along the third axis, turned by roll and yaw of 45 degrees and a pitch of 90 degrees, is written
with the tensor 0. -/
theorem C68_angles_fails {scan : String → List Num} {l : List (Option String × Yaml)} {name : ℕ → String} {m : ℕ → ℝ} {c ang : ℕ → Fin 3 → ℝ} {I : ℕ → Fin 6 → ℝ}
    (h : ∀ j < 8, ∃ e, l[j]? = some e ∧ BodyEntry scan e (name j) (m j) (c j) (ang j) (I j)) (draw : ℕ → ℕ → ℕ → ℝ)
    {i : ℕ} (hi : i < 7) (ha : ang (i + 1) = ![π / 4, π / 2, π / 4]) (hI : I (i + 1) = ![0, 0, 0, 0, 0, 1]) :
    ∃ (s : St) (D : Yaml) (P : ℕ → ℕ → Num), main scan draw (some (.map l)) start = .ok 0 s ∧ ("../generatedFiles/inertial_DH_DYN.yaml", D) ∈ s.files ∧
      FlatList D 7 (fun i => name (i + 1)) "CoM_" P ∧ (∀ k, 4 ≤ k → k < 10 → P i k = some 0) ∧
      rpy (ang (i + 1) 0) (ang (i + 1) 1) (ang (i + 1) 2) * symm3 (I (i + 1)) * (rpy (ang (i + 1) 0) (ang (i + 1) 1) (ang (i + 1) 2))ᵀ ≠ 0 := by
  obtain ⟨s, c', J, D, R, e, hf, h1, h2, -⟩ := files_code h draw
  have h3 : dhTensor i (symm3 (J i)) = dhTensor i 0 := by
    rw [(h1 i hi).2, ha, hI]
    have : codeRot (π / 4) (π / 2) (π / 4) * symm3 ![0, 0, 0, 0, 0, 1] = 0 := by
      ext a b
      fin_cases a <;> fin_cases b <;> simp [codeRot, symm3, mul_apply, Fin.sum_univ_three]
    simp only [cons_val_zero, cons_val_one, cons_val]
    rw [this]
    simp [dhTensor]
  refine ⟨s, D, _, e, by rw [hf]; simp [outputs], h2, fun k hk hk' => ?_, fun h0 => ?_⟩
  · rw [(C68_determined (p := 0) (q := 0)).2 h3]
    have : k = 4 ∨ k = 5 ∨ k = 6 ∨ k = 7 ∨ k = 8 ∨ k = 9 := by omega
    rcases this with rfl | rfl | rfl | rfl | rfl | rfl <;> simp [tenNumbers]
  · rw [ha, hI] at h0
    have := congrFun (congrFun h0 0) 0
    simp only [mul_apply, Fin.sum_univ_three, transpose_apply, rpy, axX, axY, axZ, symm3] at this
    simp [div_mul_div_comm] at this

/-- C68: none of the files written can be loaded into an object of a generated class, as the links are not in a section `dynamics`: `load_par_REG` and
`load_conf` leave the object as it is, without an error. -/
theorem C68_not_loaded {y : Yaml} {n : ℕ} {name : ℕ → String} {com : String} {P : ℕ → ℕ → Num} (h : FlatList y n name com P)
    (hn : ∀ i < n, name i ∉ ["kinematics", "Base_to_L0", "Ln_to_EE", "dynamics", "gravity", "elastic"]) (c : Wrap.Cfg) (o : Wrap.Obj) (upd : Bool) :
    (Wrap.Call.loadREG (some y) upd).run c o = some o ∧ (Wrap.Call.loadConf (some y) upd).run c o = some o := by
  have key : ∀ k ∈ ["kinematics", "Base_to_L0", "Ln_to_EE", "dynamics", "gravity", "elastic"], y.getM k = some .undef := by
    intro k hk
    obtain ⟨l, rfl, h1, h2⟩ := h
    have : Yaml.lookup k l = none := by
      unfold Yaml.lookup
      rw [Option.map_eq_none_iff, List.find?_eq_none]
      intro p hp
      obtain ⟨i, hi, rfl⟩ := List.mem_iff_getElem.1 hp
      obtain ⟨nd, h3, -⟩ := h2 i (by omega)
      rw [List.getElem?_eq_getElem hi, Option.some.injEq] at h3
      rw [h3]
      intro e
      simp only [beq_iff_eq, Option.some.injEq] at e
      exact hn i (by omega) (e ▸ hk)
    simp [Yaml.getM, this]
  simp only [List.forall_mem_cons] at key
  obtain ⟨k1, k2, k3, k4, k5, k6, -⟩ := key
  constructor
  · simp only [Wrap.Call.run, Wrap.loadREG, Wrap.yaml, k4]
    rfl
  · simp only [Wrap.Call.run, Wrap.loadConf, Wrap.loadBody, Wrap.loadKin, Wrap.loadFrame, Wrap.loadDyn, Wrap.loadGrav, Wrap.loadEla, Wrap.yaml, k1, k2, k3, k4, k5, k6]
    rfl

/-- C68: the noise added to the numbers for the regressor can make them impossible, however small it is: there is a body with a positive semidefinite tensor for which
numbers as small as wanted, drawn for the perturbation, give a tensor that is not positive semidefinite. -/
theorem C68_noise_fails : ∃ (u : LinkProp) (m : ℝ) (c : Fin 3 → ℝ) (I : Fin 6 → ℝ), u.Is m c I ∧ 0 < m ∧ (symm3 I).PosSemidef ∧
    ∀ ε > 0, ∃ e : ℕ → ℝ, (∀ k, |e k| ≤ ε) ∧ ∃ m' c' I', (perturb u e).Is m' c' I' ∧ ¬ (symm3 I').PosSemidef := by
  refine ⟨⟨"u", some 1, realV ![1, 1, 0, 1, 0, 2], realV 0, realV 0, []⟩, 1, 0, ![1, 1, 0, 1, 0, 2], ⟨rfl, rfl, rfl⟩, one_pos, ?_, fun ε hε => ?_⟩
  · refine PosSemidef.of_dotProduct_mulVec_nonneg (by ext i j; fin_cases i <;> fin_cases j <;> simp [symm3]) fun x => ?_
    simp [symm3, mulVec, dotProduct, Fin.sum_univ_three]
    nlinarith [sq_nonneg (x 0 + x 1), sq_nonneg (x 2)]
  · refine ⟨fun k => if k = 5 then ε else 0, fun k => ?_, _, _, _, perturb_is ⟨rfl, rfl, rfl⟩ _, fun h => ?_⟩
    · dsimp only
      split_ifs <;> simp [abs_of_pos hε, hε.le]
    · have := h.dotProduct_mulVec_nonneg ![1, -1, 0]
      simp [symm3, mulVec, dotProduct, Fin.sum_univ_three] at this
      linarith

/-! ## The file of the repository -/

/-- Body `j` of the file. -/
noncomputable def shippedBody (j : ℕ) : String × ℝ × (Fin 3 → ℝ) × (Fin 6 → ℝ) := Spec.Ship.bodies.getD j ("", 0, 0, 0)

/-- A child that is found by looking it up. -/
local macro "kid!" : term => `(Robot.child_of_lookup rfl)

theorem shipped_entries {scan : String → List Num} (h : Spec.Ship.ReadsTexts scan) : ∃ l, Thunder.Ship.inertial = .map l ∧ ∀ j < 8, ∃ e, l[j]? = some e ∧
    BodyEntry scan e (shippedBody j).1 (shippedBody j).2.1 (shippedBody j).2.2.1 0 (shippedBody j).2.2.2 := by
  obtain ⟨h0, h1, h2, h3, h4, h5, h6, h7, h8⟩ := h
  have num : ∀ {x y : ℝ}, x = y → (some x : Num) = some y := fun h => congrArg some h
  refine ⟨_, rfl, fun j hj => ⟨_, List.getElem?_eq_getElem (by simpa using by omega), ?_⟩⟩
  have : j = 0 ∨ j = 1 ∨ j = 2 ∨ j = 3 ∨ j = 4 ∨ j = 5 ∨ j = 6 ∨ j = 7 := by omega
  rcases this with rfl | rfl | rfl | rfl | rfl | rfl | rfl | rfl
  · exact ⟨rfl, ⟨_, kid!, rfl⟩, ⟨_, kid!, ⟨_, kid!, rfl⟩, ⟨_, kid!, rfl⟩, ⟨_, kid!, rfl⟩, ⟨_, kid!, rfl⟩, ⟨_, kid!, rfl⟩, ⟨_, kid!, rfl⟩⟩, _, _, _, kid!, kid!, h1, kid!, h0⟩
  · exact ⟨rfl, ⟨_, kid!, rfl⟩, ⟨_, kid!, ⟨_, kid!, rfl⟩, ⟨_, kid!, rfl⟩, ⟨_, kid!, rfl⟩, ⟨_, kid!, rfl⟩, ⟨_, kid!, rfl⟩, ⟨_, kid!, rfl⟩⟩, _, _, _, kid!, kid!, h2, kid!, h0⟩
  · exact ⟨rfl, ⟨_, kid!, rfl⟩, ⟨_, kid!, ⟨_, kid!, rfl⟩, ⟨_, kid!, rfl⟩, ⟨_, kid!, rfl⟩, ⟨_, kid!, rfl⟩, ⟨_, kid!, rfl⟩, ⟨_, kid!, rfl⟩⟩, _, _, _, kid!, kid!, h3, kid!, h0⟩
  · exact ⟨rfl, ⟨_, kid!, rfl⟩, ⟨_, kid!, ⟨_, kid!, rfl⟩, ⟨_, kid!, rfl⟩, ⟨_, kid!, rfl⟩, ⟨_, kid!, rfl⟩, ⟨_, kid!, rfl⟩, ⟨_, kid!, rfl⟩⟩, _, _, _, kid!, kid!, h4, kid!, h0⟩
  · exact ⟨rfl, ⟨_, kid!, rfl⟩, ⟨_, kid!, ⟨_, kid!, rfl⟩, ⟨_, kid!, rfl⟩, ⟨_, kid!, rfl⟩, ⟨_, kid!, rfl⟩, ⟨_, kid!, rfl⟩, ⟨_, kid!, rfl⟩⟩, _, _, _, kid!, kid!, h5, kid!, h0⟩
  · exact ⟨rfl, ⟨_, kid!, rfl⟩, ⟨_, kid!, ⟨_, kid!, rfl⟩, ⟨_, kid!, rfl⟩, ⟨_, kid!, rfl⟩, ⟨_, kid!, rfl⟩, ⟨_, kid!, rfl⟩, ⟨_, kid!, rfl⟩⟩, _, _, _, kid!, kid!, h6, kid!, h0⟩
  · exact ⟨rfl, ⟨_, kid!, rfl⟩, ⟨_, kid!, ⟨_, kid!, rfl⟩, ⟨_, kid!, rfl⟩, ⟨_, kid!, rfl⟩, ⟨_, kid!, rfl⟩, ⟨_, kid!, rfl⟩, ⟨_, kid!, rfl⟩⟩, _, _, _, kid!, kid!, h7, kid!, h0⟩
  · exact ⟨rfl, ⟨_, kid!, rfl⟩, ⟨_, kid!, ⟨_, kid!, rfl⟩, ⟨_, kid!, rfl⟩, ⟨_, kid!, rfl⟩, ⟨_, kid!, rfl⟩, ⟨_, kid!, rfl⟩, ⟨_, kid!, rfl⟩⟩, _, _, _, kid!, kid!, h8, kid!, h0⟩

/-- The table `dhBodies` in the URDF frames. -/
theorem shipped_frames (i : ℕ) (hi : i < 7) :
    dhPoint i (fun k => Spec.Ship.dhBodies (10 * i + 1 + k)) = (shippedBody (i + 1)).2.2.1 ∧
    dhTensor i (symm3 fun k => Spec.Ship.dhBodies (10 * i + 4 + k)) = symm3 (shippedBody (i + 1)).2.2.2 := by
  have : i = 0 ∨ i = 1 ∨ i = 2 ∨ i = 3 ∨ i = 4 ∨ i = 5 ∨ i = 6 := by omega
  constructor
  · rcases this with rfl | rfl | rfl | rfl | rfl | rfl | rfl <;> funext a <;> fin_cases a <;>
      simp [dhPoint, axX, dhA, dhD, dhAlpha, dotProduct, Fin.sum_univ_three, Spec.Ship.dhBodies, Spec.Ship.rows, shippedBody, Spec.Ship.bodies] <;> norm_num
  · rcases this with rfl | rfl | rfl | rfl | rfl | rfl | rfl <;> ext a b <;> fin_cases a <;> fin_cases b <;>
      simp [dhTensor, axX, dhAlpha, mul_apply, Fin.sum_univ_three, symm3, Spec.Ship.dhBodies, Spec.Ship.rows, shippedBody, Spec.Ship.bodies]

/-- C68 for the file of the repository: seven links with the numbers of the table `dhBodies`, and for the regressor the linear parameters of the same bodies when no
noise is drawn. -/
theorem C68_shipped {scan : String → List Num} (h : Spec.Ship.ReadsTexts scan) {draw : ℕ → ℕ → ℕ → ℝ} (h0 : ∀ i k, draw 0 i k = 0) :
    ∃ (s : St) (D R : Yaml), main scan draw (some Thunder.Ship.inertial) start = .ok 0 s ∧
      ("../generatedFiles/inertial_DH_DYN.yaml", D) ∈ s.files ∧ ("../generatedFiles/inertial_DH_REG.yaml", R) ∈ s.files ∧
      FlatList D 7 (fun i => ["link1", "link2", "link3", "link4", "link5", "link6", "link7"].getD i "") "CoM_" (fun i k => some (Spec.Ship.dhBodies (10 * i + k))) ∧
      FlatList R 7 (fun i => ["link1", "link2", "link3", "link4", "link5", "link6", "link7"].getD i "") "m_CoM_" fun i k => some (linPar (Spec.Ship.dhBodies (10 * i))
        (fun a => Spec.Ship.dhBodies (10 * i + 1 + a)) (symm3 fun a => Spec.Ship.dhBodies (10 * i + 4 + a)) k) := by
  obtain ⟨l, e, hl⟩ := shipped_entries h
  obtain ⟨s, c', J, D, R, h1, h2, h3, h4, h5, h6⟩ := C68_regressor_partial hl (fun j _ => by simp) h0
  rw [← e] at h1
  have hm : ∀ i < 7, (shippedBody (i + 1)).2.1 = Spec.Ship.dhBodies (10 * i) ∧
      (shippedBody (i + 1)).1 = ["link1", "link2", "link3", "link4", "link5", "link6", "link7"].getD i "" := fun i hi => by
    have : i = 0 ∨ i = 1 ∨ i = 2 ∨ i = 3 ∨ i = 4 ∨ i = 5 ∨ i = 6 := by omega
    rcases this with rfl | rfl | rfl | rfl | rfl | rfl | rfl <;> exact ⟨rfl, rfl⟩
  have hc : ∀ i < 7, c' i = fun k : Fin 3 => Spec.Ship.dhBodies (10 * i + 1 + k) := fun i hi =>
    (C68_determined (i := i) (J := 0) (K := 0)).1 ((h4 i hi).1.trans (shipped_frames i hi).1.symm)
  have hJ : ∀ i < 7, symm3 (J i) = symm3 fun k => Spec.Ship.dhBodies (10 * i + 4 + k) := fun i hi =>
    (C68_determined (i := i) (p := 0) (q := 0)).2 (((h4 i hi).2.trans (by
      have : rpy ((0 : Fin 3 → ℝ) 0) ((0 : Fin 3 → ℝ) 1) ((0 : Fin 3 → ℝ) 2) = 1 := by
        ext a b
        fin_cases a <;> fin_cases b <;> simp [rpy, axX, axY, axZ]
      rw [this, Matrix.one_mul, transpose_one, Matrix.mul_one])).trans (shipped_frames i hi).2.symm)
  refine ⟨s, D, R, h1, h2, h3, flat_congr h5 fun i hi => ⟨(hm i hi).2, fun k hk => ?_⟩, flat_congr h6 fun i hi => ⟨(hm i hi).2, fun k hk => ?_⟩⟩
  · rw [hc i hi, hJ i hi, (hm i hi).1]
    have : k = 0 ∨ k = 1 ∨ k = 2 ∨ k = 3 ∨ k = 4 ∨ k = 5 ∨ k = 6 ∨ k = 7 ∨ k = 8 ∨ k = 9 := by omega
    rcases this with rfl | rfl | rfl | rfl | rfl | rfl | rfl | rfl | rfl | rfl <;> simp [tenNumbers, symm3] <;> rfl
  · rw [hc i hi, hJ i hi, (hm i hi).1]

end Thunder.Urdf

namespace Thunder.Ex

open Thunder.Urdf Act Spec Matrix Real

/-- A reader for the texts of the file of the repository. -/
noncomputable def scanTexts (t : String) : List Num :=
  if t = "0 0 0" then [some 0, some 0, some 0]
  else if t = "-0.041018 -0.00014 0.049974" then [some (-0.041018), some (-0.00014), some 0.049974]
  else if t = "0.003875 0.002081 -0.04762" then [some 0.003875, some 0.002081, some (-0.04762)]
  else if t = "-0.003141 -0.02872  0.003495" then [some (-0.003141), some (-0.02872), some 0.003495]
  else if t = "2.7518e-02 3.9252e-02 -6.6502e-02" then [some 0.027518, some 0.039252, some (-0.066502)]
  else if t = "-5.317e-02 1.04419e-01 2.7454e-02" then [some (-0.05317), some 0.104419, some 0.027454]
  else if t = "-1.1953e-02 4.1065e-02 -3.8437e-02" then [some (-0.011953), some 0.041065, some (-0.038437)]
  else if t = "6.0149e-02 -1.4117e-02 -1.0517e-02" then [some 0.060149, some (-0.014117), some (-0.010517)]
  else if t = "1.0517e-02 -4.252e-03 6.1597e-02" then [some 0.010517, some (-0.004252), some 0.061597]
  else []

theorem scanTexts_reads : Spec.Ship.ReadsTexts scanTexts := by
  refine ⟨?_, ?_, ?_, ?_, ?_, ?_, ?_, ?_, ?_⟩ <;> simp [scanTexts]

/-- C68, complete files: the file of the repository. -/
example (draw : ℕ → ℕ → ℕ → ℝ) : ∃ (l : List (Option String × Yaml)) (name : ℕ → String) (m : ℕ → ℝ) (c ang : ℕ → Fin 3 → ℝ) (I : ℕ → Fin 6 → ℝ), Thunder.Ship.inertial = .map l ∧
    (∀ j < 8, ∃ e, l[j]? = some e ∧ BodyEntry scanTexts e (name j) (m j) (c j) (ang j) (I j)) ∧ (∀ j < 8, sin (ang j 2) * sin (ang j 0) = 0) ∧
    main scanTexts draw (some (.map l)) start ≠ .ub := by
  obtain ⟨l, e, h⟩ := shipped_entries scanTexts_reads
  refine ⟨l, fun j => (shippedBody j).1, fun j => (shippedBody j).2.1, fun j => (shippedBody j).2.2.1, fun _ => 0, fun j => (shippedBody j).2.2.2, e, h,
    fun j _ => by simp, ?_⟩
  obtain ⟨s, _, _, _, _, h1, -⟩ := C68_files_partial h (fun j _ => by simp) draw
  rw [h1]
  simp

/-- C68, the regressor and the file of the repository. -/
example : Spec.Ship.ReadsTexts scanTexts ∧ ∀ i k, (fun w _ _ => (w : ℝ) / 100 : ℕ → ℕ → ℕ → ℝ) 0 i k = 0 := ⟨scanTexts_reads, by simp⟩

/-- An entry of a rod of length 1, turned by the angles `text`. -/
noncomputable def rod (name text : String) : Option String × Yaml :=
  (some name, Thunder.Ship.m [("origin", Thunder.Ship.m [("xyz", Thunder.Ship.w "0 0 0"), ("rpy", Thunder.Ship.w text)]), ("mass", Thunder.Ship.r "1" 1),
    ("inertia", Thunder.Ship.m [("xx", Thunder.Ship.r "0" 0), ("xy", Thunder.Ship.r "0" 0), ("xz", Thunder.Ship.r "0" 0), ("yy", Thunder.Ship.r "0" 0),
      ("yz", Thunder.Ship.r "0" 0), ("zz", Thunder.Ship.r "1" 1)])])

/-- C68, angles for which the tensor is lost: eight rods. -/
example : ∀ j < 8, ∃ e, (List.replicate 8 (rod "a" "turned"))[j]? = some e ∧
    BodyEntry (fun t => if t = "0 0 0" then [some 0, some 0, some 0] else [some (π / 4), some (π / 2), some (π / 4)]) e "a" 1 0 ![π / 4, π / 2, π / 4] ![0, 0, 0, 0, 0, 1] :=
  fun j hj => ⟨rod "a" "turned", by rw [List.getElem?_replicate, if_pos hj], rfl, ⟨_, Robot.child_of_lookup rfl, rfl⟩,
    ⟨_, Robot.child_of_lookup rfl, ⟨_, Robot.child_of_lookup rfl, rfl⟩, ⟨_, Robot.child_of_lookup rfl, rfl⟩, ⟨_, Robot.child_of_lookup rfl, rfl⟩,
      ⟨_, Robot.child_of_lookup rfl, rfl⟩, ⟨_, Robot.child_of_lookup rfl, rfl⟩, ⟨_, Robot.child_of_lookup rfl, rfl⟩⟩,
    _, _, _, Robot.child_of_lookup rfl, Robot.child_of_lookup rfl, rfl, Robot.child_of_lookup rfl, rfl⟩

/-- C68, entries without angles: a rod. -/
example : NoAngles (some "a", Thunder.Ship.m [("origin", Thunder.Ship.m [("xyz", Thunder.Ship.w "0 0 0")]), ("mass", Thunder.Ship.r "1" 1),
    ("inertia", Thunder.Ship.m [("xx", Thunder.Ship.r "0" 0), ("xy", Thunder.Ship.r "0" 0), ("xz", Thunder.Ship.r "0" 0), ("yy", Thunder.Ship.r "0" 0),
      ("yz", Thunder.Ship.r "0" 0), ("zz", Thunder.Ship.r "1" 1)])]) "a" 1 ![0, 0, 0, 0, 0, 1] :=
  ⟨rfl, ⟨_, Robot.child_of_lookup rfl, rfl⟩,
    ⟨_, Robot.child_of_lookup rfl, ⟨_, Robot.child_of_lookup rfl, rfl⟩, ⟨_, Robot.child_of_lookup rfl, rfl⟩, ⟨_, Robot.child_of_lookup rfl, rfl⟩,
      ⟨_, Robot.child_of_lookup rfl, rfl⟩, ⟨_, Robot.child_of_lookup rfl, rfl⟩, ⟨_, Robot.child_of_lookup rfl, rfl⟩⟩,
    _, _, Robot.child_of_lookup rfl, Robot.child_of_lookup rfl, ⟨_, rfl, by decide⟩⟩

/-- C68, files that are too short: six rods. -/
example : ∀ y, some (Yaml.map (List.replicate 6 (rod "a" "0 0 0"))) = some y → y.items.length < 8 := by
  rintro y ⟨⟩
  decide

/-- C68, not loaded: the file written for the dynamics of the arm. -/
example : ∃ D, FlatList D 7 (fun i => ["link1", "link2", "link3", "link4", "link5", "link6", "link7"].getD i "") "CoM_" (fun i k => some (Spec.Ship.dhBodies (10 * i + k))) ∧
    ∀ i < 7, ["link1", "link2", "link3", "link4", "link5", "link6", "link7"].getD i "" ∉ ["kinematics", "Base_to_L0", "Ln_to_EE", "dynamics", "gravity", "elastic"] := by
  obtain ⟨_, D, _, -, -, -, h, -⟩ := C68_shipped scanTexts_reads (draw := 0) (fun _ _ => rfl)
  exact ⟨D, h, by decide⟩

end Thunder.Ex
