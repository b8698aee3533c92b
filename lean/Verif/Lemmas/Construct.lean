import Verif.Lemmas.Config

/-!
# The constructor on a well-formed configuration
-/

namespace Thunder

open Spec Act

namespace Robot

/-! ## Maps -/

theorem find_insAll {α : Type} (l : List (String × α)) (m : SMap α) (k : String) :
    (insAll m l).find k = (m.find k).or (SMap.find l k) := by
  induction l generalizing m with
  | nil => simp [insAll]
  | cons p l ih =>
    have : insAll m (p :: l) = insAll (m.ins p.1 p.2) l := rfl
    rw [this, ih, SMap.find_ins, show (p :: l : SMap α) = (p.1, p.2) :: l from rfl, SMap.find_cons]
    split_ifs with h
    · subst h
      cases m.find p.1 <;> simp
    · rfl

theorem mem_put {α : Type} {m : SMap α} {k : String} {v : α} {p : String × α} (h : p ∈ m.put k v) : p = (k, v) ∨ p ∈ m := by
  induction m with
  | nil => simpa [SMap.put] using h
  | cons a t ih =>
    obtain ⟨k', v'⟩ := a
    unfold SMap.put at h
    split_ifs at h with h1 h2
    · rcases List.mem_cons.1 h with rfl | h
      · exact .inl rfl
      · exact .inr (List.mem_cons_of_mem _ h)
    · rcases List.mem_cons.1 h with rfl | h
      · exact .inl rfl
      · exact .inr h
    · rcases List.mem_cons.1 h with rfl | h
      · exact .inr List.mem_cons_self
      · rcases ih h with rfl | h
        · exact .inl rfl
        · exact .inr (List.mem_cons_of_mem _ h)

theorem mem_ins {α : Type} {m : SMap α} {k : String} {v : α} {p : String × α} (h : p ∈ m.ins k v) : p = (k, v) ∨ p ∈ m := by
  unfold SMap.ins at h
  split_ifs at h
  · exact .inr h
  · exact mem_put h

theorem mem_insAll {α : Type} {l : List (String × α)} {m : SMap α} {p : String × α} (h : p ∈ insAll m l) : p ∈ m ∨ p ∈ l := by
  induction l generalizing m with
  | nil => exact .inl h
  | cons a l ih =>
    rcases ih (m := m.ins a.1 a.2) h with h | h
    · rcases mem_ins h with rfl | h
      · exact .inr List.mem_cons_self
      · exact .inl h
    · exact .inr (List.mem_cons_of_mem _ h)

/-! ## Blocks of `parse_config` -/

section blocks
variable {y : Yaml} {c : Conf}

theorem at1_ok {α : Type} {f : Yaml → Option α} {z : Yaml} {k : String} {a : α} (h : Entry f z k a) (s : Part) : at1 f z k s = .ok a s := by
  unfold at1
  rw [getM_entry h]
  rfl

theorem getM_noChild {y : Yaml} {k : String} (h : NoChild y k) : y.getM k = some .undef := by
  obtain ⟨l, rfl, h⟩ := h
  have : Yaml.lookup k l = none := by
    unfold Yaml.lookup
    rw [Option.map_eq_none_iff, List.find?_eq_none]
    intro p hp
    simpa using h p hp
  simp [Yaml.getM, this]

theorem opt_undef {α : Type} (f : Yaml → Option α) (d : α) (s : Part) : opt f d .undef s = .ok d s := rfl
theorem opt_zombie {α : Type} (f : Yaml → Option α) (d : α) (s : Part) : opt f d .zombie s = .ok d s := rfl
theorem opt_some {α : Type} {f : Yaml → Option α} {d a : α} {z : Yaml} (hz : z.isDef = true) (h : f z = some a) (s : Part) :
    opt f d z s = .ok a s := by
  unfold opt
  rw [if_pos hz, h]
  rfl

theorem isDef_of_asI {z : Yaml} {a : ℤ} (h : z.asI = some a) : z.isDef = true := by cases z <;> first | rfl | cases h
theorem isDef_of_asB {z : Yaml} {a : Bool} (h : z.asB = some a) : z.isDef = true := by cases z <;> first | rfl | cases h
theorem isDef_of_asVec {α : Type} {f : Yaml → Option α} {z : Yaml} {a : List α} (h : z.asVec f = some a) : z.isDef = true := by
  cases z <;> first | rfl | cases h

theorem parseBasic_ok (h : Describes y c) (s : Part) : parseBasic y s = .ok (c.n : ℤ) { s with
    nj := some c.n, types := c.types, dlI := c.dlO, elastic := c.elastic, kI := c.kO, dI := c.dO, dmI := c.dmO } := by
  have hdl : ∃ z, y.getM "Dl_order" = some z ∧ ∀ s, opt Yaml.asI 0 z s = .ok (c.dlO : ℤ) s := by
    rcases h.dlO with ⟨h1, h2⟩ | ⟨z, h1, h2⟩
    · exact ⟨_, getM_noChild h1, fun s => by rw [opt_undef, h2]; rfl⟩
    · exact ⟨z, getM_child h1, fun s => opt_some (isDef_of_asI h2) h2 s⟩
  obtain ⟨zd, hd1, hd2⟩ := hdl
  unfold parseBasic
  rw [bind_ok (at1_ok h.joints _), bind_ok (modify_run _ _), bind_ok (at1_ok h.types _), bind_ok (modify_run _ _), hd1, bind_ok (ofYaml_some _ _),
    bind_ok (hd2 _), bind_ok (modify_run _ _)]
  rcases h.ela with ⟨he, hm, hk, hd, hdm⟩ | ⟨he, ⟨z, hc, hb⟩, el, l, hel, _, hk, hd, hdm, _⟩
  · have : ∃ z, y.getM "ELASTIC_MODEL" = some z ∧ ∀ s, opt Yaml.asB false z s = .ok false s := by
      rcases hm with hm | ⟨z, h1, h2⟩
      · exact ⟨_, getM_noChild hm, fun s => opt_undef _ _ s⟩
      · exact ⟨z, getM_child h1, fun s => opt_some (isDef_of_asB h2) h2 s⟩
    obtain ⟨z, h1, h2⟩ := this
    rw [h1, bind_ok (ofYaml_some _ _), bind_ok (h2 _), he, hk, hd, hdm]
    rfl
  · rw [getM_child hc, bind_ok (ofYaml_some _ _), bind_ok (opt_some (isDef_of_asB hb) hb _)]
    simp only [if_true]
    rw [bind_ok (modify_run _ _), getM_child hel, bind_ok (ofYaml_some _ _), bind_ok (at1_ok hk _), bind_ok (modify_run _ _), bind_ok (at1_ok hd _),
      bind_ok (modify_run _ _), bind_ok (at1_ok hdm _), bind_ok (modify_run _ _), he]
    rfl

theorem classify_ok {s : Part} (h : s.types = c.types) : classify (c.n : ℤ) s = .ok () { s with
    isEla := c.types.map (fun t => if isSEA t then 1 else 0), ne := c.ne } := by
  unfold classify
  rw [bind_ok (modify_run _ _), if_pos (by omega), bind_ok (ofExc_some _ _), bind_ok (read_run _), if_pos (by simp [h, Conf.n]),
    bind_ok (ofIdx_some _ _), modify_run]
  simp only [h, Conf.n, Int.toNat_natCast, List.take_length]
  rfl

theorem nums_zero {k : ℕ} {f : ℕ → ℝ} (h : ∀ i < k, f i = 0) : nums k f = List.replicate k (some 0) := by
  refine List.ext_getElem (by simp [nums]) fun i h1 h2 => ?_
  simp only [nums, List.length_map, List.length_range] at h1
  simp [nums, h i h1]

theorem parseNums_ok (h : Describes y c) (s : Part) : parseNums y s =
    .ok ⟨nums (4 * c.n) c.dh, nums 3 c.g, nums 3 c.w2l, nums 3 fun i => c.w2l (3 + i), nums 3 c.ee, nums 3 fun i => c.ee (3 + i)⟩ s := by
  obtain ⟨kin, hk1, hk2, _⟩ := h.kin
  obtain ⟨fb, hb1, hb2, hb3, _⟩ := h.base
  obtain ⟨fe, he1, he2, he3, _⟩ := h.tool
  have hg : ∃ z, y.getM "gravity" = some z ∧ ∀ s, opt (fun gr => (gr.getM "value").bind (Yaml.asVec Yaml.asD)) [some 0, some 0, some 0] z s =
      .ok (nums 3 c.g) s := by
    rcases h.grav with ⟨h1, h2⟩ | ⟨z, h1, h2, h3, _⟩
    · refine ⟨_, getM_noChild h1, fun s => ?_⟩
      rw [opt_undef, nums_zero fun i hi => (h2 i hi).1]
      rfl
    · exact ⟨z, getM_child h1, fun s => opt_some h2 (getM_entry h3) s⟩
  obtain ⟨zg, hg1, hg2⟩ := hg
  unfold parseNums
  rw [getM_child hk1, bind_ok (ofYaml_some _ _), bind_ok (at1_ok hk2 _), hg1, bind_ok (ofYaml_some _ _), bind_ok (hg2 _), getM_child hb1,
    bind_ok (ofYaml_some _ _), bind_ok (at1_ok hb2 _), bind_ok (at1_ok hb3 _), getM_child he1, bind_ok (ofYaml_some _ _),
    bind_ok (at1_ok he2 _), bind_ok (at1_ok he3 _)]
  rfl

/-- Flags read through the non-const lookup. -/
theorem flagsM_ok {z : Yaml} {k : ℕ} {f : ℕ → ℤ} (h : Flags z "symb" k f) :
    ∃ w, z.getM "symb" = some w ∧ ∀ s, opt (Yaml.asVec Yaml.asI) (List.replicate k 0) w s = .ok (flagsL k f) s := by
  rcases h with ⟨h1, h2⟩ | ⟨w, h1, h2⟩
  · refine ⟨_, getM_noChild h1, fun s => ?_⟩
    rw [opt_undef]
    congr 1
    refine List.ext_getElem (by simp [flagsL]) fun i h3 h4 => ?_
    simp only [List.length_replicate] at h3
    simp [flagsL, h2 i h3]
  · exact ⟨w, getM_child h1, fun s => opt_some (isDef_of_asVec h2) h2 s⟩

/-- Flags read through the const lookup. -/
theorem symbVector_ok {nd : Yaml} {key : String} {k : ℕ} {f : ℕ → ℤ} (h : Flags nd key k f) (s : Part) :
    symbVector nd key (k : ℤ) s = .ok (flagsL k f) s := by
  unfold symbVector
  rcases h with ⟨h1, h2⟩ | ⟨w, h1, h2⟩
  · rw [getC_noChild h1, bind_ok (ofYaml_some _ _), if_neg (by simp [Yaml.isDef]), if_pos (by omega), ofExc_some]
    congr 1
    refine List.ext_getElem (by simp [flagsL]) fun i h3 h4 => ?_
    simp only [List.length_replicate, Int.toNat_natCast] at h3
    simp [flagsL, h2 i h3]
  · rw [getC_child h1, bind_ok (ofYaml_some _ _), if_pos (isDef_of_asVec h2), h2, bind_ok (ofYaml_some _ _), if_pos (by omega), ofExc_some]
    simp [resize, flagsL]

theorem flagsL_add (a b : ℕ) (f : ℕ → ℤ) : flagsL (a + b) f = flagsL a f ++ flagsL b fun j => f (a + j) := by
  simp only [flagsL, List.range_add, List.map_append, List.map_map]
  rfl

/-- One step of the loop over the links. -/
theorem copyAt_row {w n i : ℕ} {f : ℕ → ℤ} (hi : i < n) :
    copyAt (flagsL (i * w) f ++ List.replicate ((n - i) * w) 0) (i * w) (flagsL w fun j => f (w * i + j)) =
      some (flagsL ((i + 1) * w) f ++ List.replicate ((n - (i + 1)) * w) 0) := by
  obtain ⟨d, rfl⟩ : ∃ d, n = i + (d + 1) := ⟨n - i - 1, by omega⟩
  have e1 : i + (d + 1) - i = d + 1 := by omega
  have e2 : i + (d + 1) - (i + 1) = d := by omega
  rw [e1, e2, Nat.add_mul d 1 w, Nat.one_mul, Nat.add_mul i 1 w, Nat.one_mul, flagsL_add]
  have hl : ∀ k f, (flagsL k f).length = k := fun k f => by simp [flagsL]
  unfold copyAt
  rw [if_pos (by simp [hl]), List.take_left' (hl _ _), List.drop_append, hl, hl]
  simp [hl, List.drop_eq_nil_of_le, Nat.mul_comm]

theorem symbLinks_ok {sec : String} {w n : ℕ} {f : ℕ → ℤ} : ∀ (l : List (Option String × Yaml)) (i : ℕ), i + l.length = n →
    (∀ j < l.length, ∃ key nd z, l[j]? = some (key, nd) ∧ Child nd sec z ∧ Flags z "symb" w fun a => f (w * (i + j) + a)) → ∀ s,
    symbLinks sec w i (flagsL (i * w) f ++ List.replicate ((n - i) * w) 0) l s = .ok (flagsL (n * w) f) s := by
  intro l
  induction l with
  | nil =>
    intro i hi _ s
    have : n = i := by simpa using hi.symm
    subst this
    simp [symbLinks]
  | cons e l ih =>
    intro i hi hl s
    obtain ⟨key, nd, z, he, hz, hf⟩ := hl 0 (by simp)
    obtain rfl : e = (key, nd) := by simpa using he
    obtain ⟨w', hw1, hw2⟩ := flagsM_ok hf
    unfold symbLinks
    rw [getC_child hz, bind_ok (ofYaml_some _ _), hw1, bind_ok (ofYaml_some _ _), bind_ok (hw2 _), Nat.add_zero,
      copyAt_row (by simp at hi; omega), bind_ok (ofIdx_some _ _)]
    refine ih (i + 1) (by simp at hi; omega) (fun j hj => ?_) s
    obtain ⟨key, nd, z, he, hz, hf⟩ := hl (j + 1) (by simpa using hj)
    exact ⟨key, nd, z, by simpa using he, hz, by rw [Nat.add_assoc, Nat.add_comm 1 j]; exact hf⟩

theorem symbJoints_ok : ∀ (l : List (Option String × Yaml)) (i : ℕ), i ≤ c.ne → c.ne ≤ i + l.length →
    (∀ j < c.ne - i, ∃ key nd, l[j]? = some (some key, nd) ∧ ConfJoint c (i + j) nd) → ∀ s,
    symbJoints c.ne c.kO c.dO c.dmO i ⟨flagsL (i * c.kO) c.fK, flagsL (i * c.dO) c.fD, flagsL (i * c.dmO) c.fDm, flagsL i c.fMm⟩ l s =
      .ok ⟨flagsL (c.ne * c.kO) c.fK, flagsL (c.ne * c.dO) c.fD, flagsL (c.ne * c.dmO) c.fDm, flagsL c.ne c.fMm⟩ s := by
  intro l
  induction l with
  | nil =>
    intro i h1 h2 _ s
    obtain rfl : i = c.ne := by simp at h2; omega
    rfl
  | cons e l ih =>
    intro i h1 h2 hl s
    unfold symbJoints
    by_cases hi : i = c.ne
    · rw [if_pos hi, ← hi]; rfl
    obtain ⟨key, nd, he, _, hK, hD, hDm, hMm⟩ := hl 0 (by omega)
    obtain rfl : e = (some key, nd) := by simpa using he
    have hm : ∃ w, nd.getC "Mm_symb" = some w ∧ ∀ s, opt Yaml.asI 0 w s = .ok (c.fMm i) s := by
      rcases hMm with ⟨h1, h2⟩ | ⟨w, h1, h2⟩
      · exact ⟨_, getC_noChild h1, fun s => by rw [opt_zombie]; rw [Nat.add_zero] at h2; rw [h2]⟩
      · exact ⟨w, getC_child h1, fun s => opt_some (isDef_of_asI h2) h2 s⟩
    obtain ⟨w, hm1, hm2⟩ := hm
    have app : ∀ (o : ℕ) (f : ℕ → ℤ), (if (0 : ℤ) < (o : ℤ) then flagsL (i * o) f ++ flagsL o (fun j => f (o * (i + 0) + j)) else flagsL (i * o) f) =
        flagsL ((i + 1) * o) f := by
      intro o f
      split_ifs with h0
      · rw [Nat.add_mul, Nat.one_mul, flagsL_add, Nat.add_zero, Nat.mul_comm o i]
      · obtain rfl : o = 0 := by omega
        simp
    rw [if_neg hi]
    simp only
    rw [bind_ok (symbVector_ok hK _), bind_ok (symbVector_ok hD _), bind_ok (symbVector_ok hDm _), hm1, bind_ok (ofYaml_some _ _), bind_ok (hm2 _),
      app, app, app]
    have e1 : flagsL i c.fMm ++ [c.fMm i] = flagsL (i + 1) c.fMm := by rw [flagsL_add]; rfl
    rw [e1]
    refine ih (i + 1) (by omega) (by simp at h2; omega) (fun j hj => ?_) s
    obtain ⟨key, nd, he, hc⟩ := hl (j + 1) (by omega)
    exact ⟨key, nd, by simpa using he, by rw [Nat.add_assoc, Nat.add_comm 1 j]; exact hc⟩

theorem parseDynSymb_ok (h : Describes y c) {s : Part} (h1 : s.dlI = c.dlO) (h2 : s.elastic = c.elastic) (h3 : s.ne = c.ne) (h4 : s.kI = c.kO)
    (h5 : s.dI = c.dO) (h6 : s.dmI = c.dmO) : parseDynSymb y (c.n : ℤ) s = .ok (flagsL (c.n * 10) c.fdyn, flagsL (c.n * c.dlO) c.fdl,
      if c.elastic then ⟨flagsL (c.ne * c.kO) c.fK, flagsL (c.ne * c.dO) c.fD, flagsL (c.ne * c.dmO) c.fDm, flagsL c.ne c.fMm⟩
        else ⟨[], [], [], []⟩) s := by
  obtain ⟨l, hl1, hl2, hl3⟩ := h.links
  have e1 : symbLinks "inertial" 10 0 (List.replicate (10 * (c.n : ℤ).toNat) 0) (Yaml.map l).items s = .ok (flagsL (c.n * 10) c.fdyn) s := by
    have := symbLinks_ok (sec := "inertial") (w := 10) (n := c.n) (f := c.fdyn) l 0 (by omega) (fun j hj => ?_) s
    · simpa [flagsL, Yaml.items, Nat.mul_comm] using this
    · obtain ⟨key, nd, he, ⟨z, hz, _, hf⟩, _⟩ := hl3 j (by omega)
      exact ⟨some key, nd, z, he, hz, by rw [Nat.zero_add]; exact hf⟩
  have e2 : parseDlSymb (.map l) c.n c.dlO s = .ok (flagsL (c.n * c.dlO) c.fdl) s := by
    unfold parseDlSymb
    split_ifs with h0
    · have := symbLinks_ok (sec := "friction") (w := c.dlO) (n := c.n) (f := c.fdl) l 0 (by omega) (fun j hj => ?_) s
      · have e : ((c.dlO : ℤ) * (c.n : ℤ)).toNat = c.n * c.dlO := by rw [← Int.natCast_mul, Int.toNat_natCast, Nat.mul_comm]
        rw [e]
        simpa [flagsL, Yaml.items] using this
      · obtain ⟨key, nd, he, _, hf⟩ := hl3 j (by omega)
        rcases hf with ⟨h0', _⟩ | ⟨z, hz, _, hf⟩
        · omega
        · exact ⟨some key, nd, z, he, hz, by rw [Nat.zero_add]; exact hf (by omega)⟩
    · have : c.dlO = 0 := by omega
      simp [this, flagsL]
  have e3 : parseElaSymb y s s = .ok (if c.elastic then ⟨flagsL (c.ne * c.kO) c.fK, flagsL (c.ne * c.dO) c.fD, flagsL (c.ne * c.dmO) c.fDm,
      flagsL c.ne c.fMm⟩ else ⟨[], [], [], []⟩) s := by
    unfold parseElaSymb
    rcases h.ela with ⟨he, _⟩ | ⟨he, _, el, l, hel, _, _, _, _, hj, hn, hjs⟩
    · rw [h2, he]; rfl
    · rw [h2, he, if_pos rfl, if_pos rfl, getM_child hel, bind_ok (ofYaml_some _ _), getM_child hj, bind_ok (ofYaml_some _ _), h3, h4, h5, h6]
      have := symbJoints_ok (c := c) l 0 (by omega) (by omega) (fun j hj' => by rw [Nat.zero_add]; exact hjs j (by omega)) s
      simpa [flagsL, Yaml.items] using this
  unfold parseDynSymb
  rw [getM_child hl1, bind_ok (ofYaml_some _ _), bind_ok e1, bind_ok (read_run _), h1, bind_ok e2, bind_ok e3]
  rfl

theorem symbOpt_ok {z : Yaml} {k : ℕ} {f : ℕ → ℤ} (h : Flags z "symb" k f) (par : String) (s : Part) :
    symbOpt z par k s = .ok () { s with symb := s.symb.put par (flagsL k f) } := by
  unfold symbOpt
  rcases h with ⟨h1, h2⟩ | ⟨w, h1, h2⟩
  · have e : List.replicate k (0 : ℤ) = flagsL k f := by
      refine List.ext_getElem (by simp [flagsL]) fun i h3 h4 => ?_
      simp only [List.length_replicate] at h3
      simp [flagsL, h2 i h3]
    rw [getM_noChild h1, bind_ok (ofYaml_some _ _), if_neg (by simp [Yaml.isDef]), e]
    rfl
  · rw [getM_child h1, bind_ok (ofYaml_some _ _), if_pos (isDef_of_asVec h2), h2, bind_ok (ofYaml_some _ _)]
    rfl

/-- The flags of the kinematic parameters. -/
def kinSymb (c : Conf) (m : SMap (List ℤ)) : SMap (List ℤ) :=
  (((m.put "par_DHtable" (flagsL (4 * c.n) c.fdh)).put "par_world2L0" (flagsL 6 c.fw2l)).put "par_Ln2EE" (flagsL 6 c.fee)).put "par_gravity" (flagsL 3 c.fg)

theorem parseKinSymb_ok (h : Describes y c) (s : Part) : parseKinSymb y (4 * c.n) s = .ok () { s with symb := kinSymb c s.symb } := by
  obtain ⟨kin, hk1, _, hk3⟩ := h.kin
  obtain ⟨fb, hb1, _, _, hb4⟩ := h.base
  obtain ⟨fe, he1, _, _, he4⟩ := h.tool
  have hg : ∃ z, y.getM "gravity" = some z ∧ ∀ s, symbOpt z "par_gravity" 3 s = .ok () { s with symb := s.symb.put "par_gravity" (flagsL 3 c.fg) } := by
    rcases h.grav with ⟨h1, h2⟩ | ⟨z, h1, _, _, h4⟩
    · refine ⟨_, getM_noChild h1, fun s => ?_⟩
      have e : flagsL 3 c.fg = List.replicate 3 0 := by
        simp [flagsL, List.range_succ, (h2 0 (by decide)).2, (h2 1 (by decide)).2, (h2 2 (by decide)).2, List.replicate]
      rw [e]
      rfl
    · exact ⟨z, getM_child h1, fun s => symbOpt_ok h4 _ s⟩
  obtain ⟨zg, hg1, hg2⟩ := hg
  unfold parseKinSymb
  rw [getM_child hk1, bind_ok (ofYaml_some _ _), bind_ok (symbOpt_ok hk3 _ _), getM_child hb1, bind_ok (ofYaml_some _ _), bind_ok (symbOpt_ok hb4 _ _),
    getM_child he1, bind_ok (ofYaml_some _ _), bind_ok (symbOpt_ok he4 _ _), hg1, bind_ok (ofYaml_some _ _), hg2]
  rfl

theorem first3_nums (f : ℕ → ℝ) : first3 (nums 3 f) = some (nums 3 f) := by
  unfold first3
  rw [if_pos (by simp [nums]), List.take_of_length_le (by simp [nums])]

theorem nums_add (a b : ℕ) (f : ℕ → ℝ) : nums a f ++ nums b (fun j => f (a + j)) = nums (a + b) f := by
  simp only [nums, List.range_add, List.map_append, List.map_map]
  rfl

/-- Flags of the elastic parameters: empty without elastic model. -/
def elaFlags (c : Conf) (k : ℕ) (f : ℕ → ℤ) : List ℤ := if c.elastic then flagsL k f else []

/-- `symb` at the end of `parse_config`. -/
def symbOf (c : Conf) : SMap (List ℤ) :=
  let m : SMap (List ℤ) := []
  ((((((((((m.put "par_DYN" (flagsL (c.n * 10) c.fdyn)).put "par_Dl" (flagsL (c.n * c.dlO) c.fdl)).put "par_K" (elaFlags c (c.ne * c.kO) c.fK)).put
    "par_D" (elaFlags c (c.ne * c.dO) c.fD)).put "par_Dm" (elaFlags c (c.ne * c.dmO) c.fDm)).put "par_Mm" (elaFlags c c.ne c.fMm)).put
    "par_DHtable" (flagsL (4 * c.n) c.fdh)).put "par_world2L0" (flagsL 6 c.fw2l)).put "par_Ln2EE" (flagsL 6 c.fee)).put "par_gravity" (flagsL 3 c.fg))

/-- The members at the end of `parse_config`. -/
noncomputable def partOf (c : Conf) : Part where
  nj := some c.n
  types := c.types
  elastic := c.elastic
  isEla := c.types.map fun t => if isSEA t then 1 else 0
  ne := c.ne
  kI := c.kO
  dI := c.dO
  dlI := c.dlO
  dmI := c.dmO
  args := insAll [] (kinArgs (nums (4 * c.n) c.dh) (nums 6 c.w2l) (nums 6 c.ee) (nums 3 c.g))
  model := insAll [] (kinModel c.n)
  symb := symbOf c

theorem parseFinal_ok {s : Part} (h : s.nj = some (c.n : ℤ)) (h' : s.types = c.types) (dh : List Num) (g w w' e e' : ℕ → ℝ) :
    parseFinal ⟨dh, nums 3 g, nums 3 w, nums 3 w', nums 3 e, nums 3 e'⟩ s = .ok () { s with
      model := insAll [] (kinModel c.n), args := insAll [] (kinArgs dh (nums 3 w ++ nums 3 w') (nums 3 e ++ nums 3 e') (nums 3 g)) } := by
  have hn : s.types.length = c.n := by rw [h']; rfl
  unfold parseFinal
  rw [bind_ok (read_run _), if_pos (by rw [h, hn]), bind_ok (ofExc_some _ _), bind_ok (modify_run _ _)]
  simp only [first3_nums]
  rw [bind_ok (ofIdx_some _ _), bind_ok (ofIdx_some _ _), bind_ok (ofIdx_some _ _), bind_ok (ofIdx_some _ _), bind_ok (ofIdx_some _ _),
    modify_run, hn]

/-- Write of `symb`. -/
def withSymb (s : Part) (m : SMap (List ℤ)) : Part := { s with symb := m }

theorem putSymb_run (s : Part) (m : SMap (List ℤ)) (k : String) (v : List ℤ) : putSymb k v (withSymb s m) = .ok () (withSymb s (m.put k v)) := rfl

theorem parse_ok (h : Describes y c) : parse y Part.new = .ok () (partOf c) := by
  have hl : (nums (4 * c.n) c.dh).length = 4 * c.n := by simp [nums]
  have hk : ∀ s m, parseKinSymb y (4 * c.n) (withSymb s m) = .ok () (withSymb s (kinSymb c m)) := fun s m => parseKinSymb_ok h _
  obtain ⟨s₀, hs₀⟩ : ∃ s₀ : Part, s₀ = ⟨some c.n, c.types, c.elastic, c.types.map (fun t => if isSEA t then 1 else 0), c.ne, c.kO, c.dO, c.dlO, c.dmO,
    [], [], []⟩ := ⟨_, rfl⟩
  have h1 : classify (c.n : ℤ) ⟨some c.n, c.types, c.elastic, [], 0, c.kO, c.dO, c.dlO, c.dmO, [], [], []⟩ = .ok () (withSymb s₀ []) := by rw [classify_ok rfl, hs₀]; rfl
  have h2 : parseDynSymb y (c.n : ℤ) (withSymb s₀ []) = .ok (flagsL (c.n * 10) c.fdyn, flagsL (c.n * c.dlO) c.fdl,
      ⟨elaFlags c (c.ne * c.kO) c.fK, elaFlags c (c.ne * c.dO) c.fD, elaFlags c (c.ne * c.dmO) c.fDm, elaFlags c c.ne c.fMm⟩) (withSymb s₀ []) := by
    rw [parseDynSymb_ok h (by rw [hs₀]; rfl) (by rw [hs₀]; rfl) (by rw [hs₀]; rfl) (by rw [hs₀]; rfl) (by rw [hs₀]; rfl) (by rw [hs₀]; rfl)]
    unfold elaFlags
    cases c.elastic <;> rfl
  have h0 : parseBasic y Part.new = .ok (c.n : ℤ) ⟨some c.n, c.types, c.elastic, [], 0, c.kO, c.dO, c.dlO, c.dmO, [], [], []⟩ := parseBasic_ok h _
  unfold parse
  rw [bind_ok h0, bind_ok h1, bind_ok (parseNums_ok h _), bind_ok h2]
  simp only [hl]
  rw [bind_ok (putSymb_run _ _ _ _), bind_ok (putSymb_run _ _ _ _), bind_ok (putSymb_run _ _ _ _), bind_ok (putSymb_run _ _ _ _),
    bind_ok (putSymb_run _ _ _ _), bind_ok (putSymb_run _ _ _ _), bind_ok (hk _ _),
    parseFinal_ok (by rw [hs₀]; rfl) (by rw [hs₀]; rfl), nums_add, nums_add, hs₀]
  rfl

/-- The object built from a well-formed configuration. -/
noncomputable def robotOf (c : Conf) : Robot where
  name := "robot"
  n := c.n
  ne := c.ne
  elastic := c.elastic
  types := c.types
  isEla := c.types.map fun t => if isSEA t then 1 else 0
  kI := c.kO
  dI := c.dO
  dlI := c.dlO
  dmI := c.dmO
  args := insAll (partOf c).args (newArgs (partOf c) c.n)
  model := insAll (partOf c).model (newModel (partOf c) c.n)
  symb := insAll (partOf c).symb (newSymb (partOf c) c.n)
  funs := []
  funArgs := []
  funDescr := []

theorem construct_ok (h : Describes y c) : construct y = .ok (robotOf c) := by
  have hs : (partOf c).SizesOk := ⟨by simp only [partOf]; positivity, by simp only [partOf]; positivity, by simp only [partOf]; positivity,
    by simp only [partOf]; positivity⟩
  unfold construct
  rw [parse_ok h]
  simp only [initVars]
  have : (partOf c).nj = some (c.n : ℤ) := rfl
  rw [this]
  simp only
  rw [if_neg (by simp [partOf, Conf.n]), if_neg (not_not.2 hs)]
  rfl

theorem noChild_child {y z : Yaml} {k : String} (h : NoChild y k) (h' : Child y k z) : False := by
  obtain ⟨l, rfl, h⟩ := h
  obtain ⟨l₁, l₂, e, _⟩ := h'
  cases e
  exact h (some k, z) (by simp) rfl

theorem flags_length {z : Yaml} {k : ℕ} {f : ℕ → ℤ} {xs : List ℤ} (h : Flags z "symb" k f) (hx : Entry (Yaml.asVec Yaml.asI) z "symb" xs) :
    xs.length ≤ k := by
  rcases h with ⟨h, _⟩ | h
  · obtain ⟨w, hw, _⟩ := hx
    exact (noChild_child h hw).elim
  · rw [entry_unique hx h]
    simp [flagsL]

theorem _root_.Thunder.Spec.Describes.safe (h : Describes y c) : SafeConfig y c.n := by
  have hu : ∀ {y : Yaml} {k : String} {z z' : Yaml}, Child y k z → Child y k z' → z' = z := fun h h' => child_unique h' h
  obtain ⟨l₀, hl1, hl2, hl3⟩ := h.links
  have hl : ∀ l, Child y "dynamics" (.map l) → l = l₀ := fun l hc => by cases hu hl1 hc; rfl
  have hmem : ∀ e ∈ l₀, ∃ i < c.n, ConfLink c i e.2 := by
    intro e he
    obtain ⟨i, hi, rfl⟩ := List.mem_iff_getElem.1 he
    obtain ⟨key, nd, h1, h2⟩ := hl3 i (by omega)
    rw [List.getElem?_eq_getElem hi, Option.some.injEq] at h1
    exact ⟨i, by omega, by rw [h1]; exact h2⟩
  refine ⟨h.joints, fun ts h' => ?_, fun s hs k hk z xs h1 h2 => ?_, fun z xs h' hx => ?_, fun l h' => ?_, fun l h' => ?_, fun l ord h' ho h0 => ?_⟩
  · rw [entry_unique h' h.types]; rfl
  · obtain ⟨z₁, a1, a2, a3, _⟩ := h.base
    obtain ⟨z₂, b1, b2, b3, _⟩ := h.tool
    simp only [List.mem_cons, List.not_mem_nil, or_false] at hs hk
    rcases hs with rfl | rfl <;> rcases hk with rfl | rfl
    · rw [hu a1 h1] at h2; rw [entry_unique h2 a2]; simp [nums]
    · rw [hu a1 h1] at h2; rw [entry_unique h2 a3]; simp [nums]
    · rw [hu b1 h1] at h2; rw [entry_unique h2 b2]; simp [nums]
    · rw [hu b1 h1] at h2; rw [entry_unique h2 b3]; simp [nums]
  · rcases h.grav with ⟨hg, _⟩ | ⟨z', hz, _, hv, _⟩
    · exact (noChild_child hg h').elim
    · rw [hu hz h'] at hx; rw [entry_unique hx hv]; simp [nums]
  · rw [hl l h', hl2]
  · rw [hl l h']
    intro e he s xs hc hx
    obtain ⟨i, _, ⟨z, hz, _, hf⟩, _⟩ := hmem e he
    rw [hu hz hc] at hx
    exact flags_length hf hx
  · rw [hl l h']
    intro e he s xs hc hx
    obtain ⟨i, _, _, hfr⟩ := hmem e he
    have hord : ord.toNat = c.dlO := by
      rcases h.dlO with ⟨hn, _⟩ | hd
      · obtain ⟨w, hw, _⟩ := ho
        exact (noChild_child hn hw).elim
      · rw [entry_unique ho hd]; simp
    rcases hfr with ⟨_, hn⟩ | ⟨z, hz, _, hf⟩
    · exact (noChild_child hn hc).elim
    · rw [hu hz hc] at hx
      rw [hord]
      exact flags_length (hf (by omega)) hx

end blocks

end Robot

end Thunder
