import Verif.Lemmas.Shared

/-!
# Property C86: links do not depend on what follows them, and do not load what follows them

What `get` of two robots whose files begin with the same links returns for these links, and which entries of the regressors of one robot vanish; likewise for
the getters of the classes generated from them.
-/

open scoped Classical
open Matrix

namespace Thunder

noncomputable section

open Spec Robot SX

section

variable [Fl] {y y' : Yaml} {c c' : Conf} {k : ℕ}

/-- C86: the frames of shared links are the same, whatever follows these links. -/
theorem C86_frames {s : State c} {s' : State c'} {R R' : String → Mat → Prop} (h : Source y c s R) (h' : Source y' c' s' R') (hs : SharesLinks c c' k)
    (hq : ∀ j (h1 : j < c.n) (h2 : j < c'.n), j < k → s'.q ⟨j, h2⟩ = s.q ⟨j, h1⟩) :
    (∀ i < k, ∃ T : Matrix (Fin 4) (Fin 4) ℝ, Returns R ("T_" ++ toString (i + 1)) T ∧ Returns R' ("T_" ++ toString (i + 1)) T) ∧
    ∀ i ≤ k, ∃ T : Matrix (Fin 4) (Fin 4) ℝ, Returns R ("T_0_" ++ toString i) T ∧ Returns R' ("T_0_" ++ toString i) T := by
  obtain ⟨-, a1, a2, -, -⟩ := C56_frames h
  obtain ⟨-, b1, b2, -, -⟩ := C56_frames h'
  refine ⟨fun i hi => ⟨_, a1 i (lt_of_lt_of_le hi hs.le), ?_⟩, fun i hi => ⟨_, a2 i (hi.trans hs.le), ?_⟩⟩
  · have := b1 i (lt_of_lt_of_le hi hs.le')
    rwa [link_shared hs hi, hq i (lt_of_lt_of_le hi hs.le) _ hi] at this
  · have := b2 i (hi.trans hs.le')
    rwa [linkFrame_shared hs hi fun j u v hj => hq j u v (by omega)] at this

/-- C86: the Jacobians of shared links have the same columns for the shared joints. -/
theorem C86_jacobians {s : State c} {s' : State c'} {R R' : String → Mat → Prop} (h : Source y c s R) (h' : Source y' c' s' R') (hU : UnitNumeric c)
    (hU' : UnitNumeric c') (hs : SharesLinks c c' k) (hq : ∀ j (h1 : j < c.n) (h2 : j < c'.n), j < k → s'.q ⟨j, h2⟩ = s.q ⟨j, h1⟩) {i : ℕ} (hi : i < k) :
    (∃ (J : Matrix (Fin 6) (Fin c.n) ℝ) (J' : Matrix (Fin 6) (Fin c'.n) ℝ),
      Returns R ("J_" ++ toString (i + 1)) J ∧ Returns R' ("J_" ++ toString (i + 1)) J' ∧
      ∀ a j (h1 : j < c.n) (h2 : j < c'.n), j < k → J' a ⟨j, h2⟩ = J a ⟨j, h1⟩) ∧
    (com c'.dyn i = com c.dyn i → ∃ (J : Matrix (Fin 6) (Fin c.n) ℝ) (J' : Matrix (Fin 6) (Fin c'.n) ℝ),
      Returns R ("J_cm_" ++ toString (i + 1)) J ∧ Returns R' ("J_cm_" ++ toString (i + 1)) J' ∧
      ∀ a j (h1 : j < c.n) (h2 : j < c'.n), j < k → J' a ⟨j, h2⟩ = J a ⟨j, h1⟩) := by
  have h1 := lt_of_lt_of_le hi hs.le
  have h2 := lt_of_lt_of_le hi hs.le'
  refine ⟨⟨_, _, (C57_jacobians h hU).1 i h1, (C57_jacobians h' hU').1 i h2, fun a j u v hj => jacobian_shared hs hi hq 0 a u v hj⟩,
    fun hc => ⟨_, _, (C57_com h hU h1).1, (C57_com h' hU' h2).1, fun a j u v hj => ?_⟩⟩
  rw [hc]
  exact jacobian_shared hs hi hq _ a u v hj

/-- C86: a joint does not move the links before it. -/
theorem C86_columns {s : State c} {R : String → Mat → Prop} (h : Source y c s R) (hU : UnitNumeric c) {i : ℕ} (hi : i < c.n) :
    ∀ f ∈ ["J_", "J_cm_"], ∃ J : Matrix (Fin 6) (Fin c.n) ℝ, Returns R (f ++ toString (i + 1)) J ∧ ∀ a (j : Fin c.n), i < (j : ℕ) → J a j = 0 := by
  intro f hf
  simp only [List.mem_cons, List.not_mem_nil, or_false] at hf
  rcases hf with rfl | rfl
  · exact ⟨_, (C57_jacobians h hU).1 i hi, fun a j hj => jacobian_later hi 0 a hj⟩
  · exact ⟨_, (C57_com h hU hi).1, fun a j hj => jacobian_later hi _ a hj⟩

/-! ## Loads -/

omit [Fl] in
theorem dynPar_block {x x' : ℕ → ℝ} {k : ℕ} (h10 : ∀ l < 10, x' (10 * (k / 10) + l) = x (10 * (k / 10) + l)) :
    dynPar x' k = dynPar x k := by
  unfold dynPar invPar
  simp only [h10 _ (show 0 < 10 by omega), h10 _ (show 1 < 10 by omega), h10 _ (show 2 < 10 by omega), h10 _ (show 3 < 10 by omega), h10 _ (show 4 < 10 by omega),
    h10 _ (show 5 < 10 by omega), h10 _ (show 6 < 10 by omega), h10 _ (show 7 < 10 by omega), h10 _ (show 8 < 10 by omega), h10 _ (show 9 < 10 by omega)]

theorem linkFrame_withDyn (p : ℕ → ℝ) (q : Fin c.n → ℝ) (i : ℕ) : linkFrame (withDyn c p) q i = linkFrame c q i := by
  induction i with
  | zero => rfl
  | succ i ih => exact congrArg (· * (if h : i < c.n then linkOf c i (q ⟨i, h⟩) else 1)) ih

theorem links_withDyn (p : ℕ → ℝ) : (fun (i : ℕ) (q : Fin c.n → ℝ) => linkFrame (withDyn c p) q (i + 1)) = fun i q => linkFrame c q (i + 1) :=
  funext fun i => funext fun q => linkFrame_withDyn p q (i + 1)

theorem massOf_withDyn (p : ℕ → ℝ) : massOf (withDyn c p) = fun q => quadratic (kineticEnergy p c.n (fun i q => linkFrame c q (i + 1)) q) :=
  congrArg (fun T : ℕ → (Fin c.n → ℝ) → _ => fun q => quadratic (kineticEnergy p c.n T q)) (links_withDyn (c := c) p)

theorem gravityOf_withDyn (p : ℕ → ℝ) (q : Fin c.n → ℝ) (a : Fin c.n) : gravityOf (withDyn c p) q a =
    deriv (fun x => potential p (fun k => c.g k) c.n fun i => linkFrame c (Function.update q a x) (i + 1)) (q a) :=
  congrArg (fun f : ℝ → ℝ => deriv f (q a)) (funext fun x =>
    congrArg (potential p (fun k => c.g k) c.n) (funext fun i => linkFrame_withDyn (c := c) p (Function.update q a x) (i + 1)))

omit [Fl] in
theorem row_congr {n : ℕ} {A B : Matrix (Fin n) (Fin n) ℝ} {v : Fin n → ℝ} {a : Fin n} (h : ∀ j, A a j = B a j) : (A *ᵥ v) a = (B *ᵥ v) a := by
  simp only [mulVec, dotProduct, h]

theorem massOf_row {p p' : ℕ → ℝ} {i : ℕ} (hp : ∀ k, k / 10 ≠ i → p' k = p k) (q : Fin c.n → ℝ) {a : Fin c.n} (ha : i < (a : ℕ)) (j : Fin c.n) :
    massOf (withDyn c p') q a j = massOf (withDyn c p) q a j := by
  have hi : i < c.n := ha.trans a.2
  have e : ∀ p, massOf (withDyn c p) q a j = quadratic (kineticEnergy p c.n (fun i q => linkFrame c q (i + 1)) q) a j := fun p =>
    congrArg (fun A : (Fin c.n → ℝ) → Matrix (Fin c.n) (Fin c.n) ℝ => A q a j) (massOf_withDyn (c := c) p)
  refine (e p').trans (Eq.trans ?_ (e p).symm)
  rw [mass_split hi hp, Matrix.add_apply, linkMass_row (fun _ _ hq => linkFrame_congr hi hq) ha, add_zero]

theorem coriolisOf_row {p p' : ℕ → ℝ} {i : ℕ} (hp : ∀ k, k / 10 ≠ i → p' k = p k) (q v : Fin c.n → ℝ) {a : Fin c.n} (ha : i < (a : ℕ)) (j : Fin c.n) :
    coriolisOf (withDyn c p') q v a j = coriolisOf (withDyn c p) q v a j := by
  have hi : i < c.n := ha.trans a.2
  have e : ∀ p, coriolisOf (withDyn c p) q v a j = christoffel (fun q => quadratic (kineticEnergy p c.n (fun i q => linkFrame c q (i + 1)) q)) q v a j :=
    fun p => congrArg (fun A : (Fin c.n → ℝ) → Matrix (Fin c.n) (Fin c.n) ℝ => christoffel A q v a j) (massOf_withDyn (c := c) p)
  exact (e p').trans ((christoffel_row (fun _ _ hq => linkFrame_congr hi hq) hi hp ha q v j).trans (e p).symm)

theorem gravityOf_row {p p' : ℕ → ℝ} {i : ℕ} (hp : ∀ k, k / 10 ≠ i → p' k = p k) (q : Fin c.n → ℝ) {a : Fin c.n} (ha : i < (a : ℕ)) :
    gravityOf (withDyn c p') q a = gravityOf (withDyn c p) q a := by
  have hi : i < c.n := ha.trans a.2
  have := potential_row (T := fun i q => linkFrame c q (i + 1)) (g := fun k => c.g k) (fun _ _ hq => linkFrame_congr hi hq) hi hp ha q
  exact (gravityOf_withDyn (c := c) p' q a).trans (this.trans (gravityOf_withDyn (c := c) p q a).symm)

omit [Fl] in
/-- An entry of a matrix vanishes if the products with the linear parameters do not depend on its link. -/
theorem entry_zero {n : ℕ} {A : Matrix (Fin n) (Fin (10 * n)) ℝ} {a : Fin n} {b : Fin (10 * n)}
    (h : ∀ p p', (∀ k, k / 10 ≠ (b : ℕ) / 10 → p' k = p k) → (A *ᵥ fun k => reg p' k) a = (A *ᵥ fun k => reg p k) a) : A a b = 0 := by
  have hx' : ∀ i < n, (1 : ℝ) + (if 10 * i = (b : ℕ) then 1 else 0) ≠ 0 := fun i _ => by split_ifs <;> norm_num
  have h1 := h (dynPar fun _ => 1) (dynPar fun k => 1 + if k = (b : ℕ) then 1 else 0) fun k hk =>
    dynPar_block fun l hl => by rw [if_neg (by omega), add_zero]
  have e1 : (fun k : Fin (10 * n) => reg (dynPar fun k => (1 : ℝ) + if k = (b : ℕ) then 1 else 0) k) = (fun _ => 1) + Pi.single b 1 := funext fun k => by
    rw [reg_dynPar hx' k.2]
    simp only [Pi.add_apply, Pi.single_apply, Fin.ext_iff]
  have e2 : (fun k : Fin (10 * n) => reg (dynPar fun _ => (1 : ℝ)) k) = fun _ => 1 := funext fun k => reg_dynPar (fun _ _ => one_ne_zero) k.2
  rw [e1, e2, mulVec_add, mulVec_single_one, Pi.add_apply, add_eq_left] at h1
  exact h1

/-- C86: the parameters of a link do not enter the torques of the joints after it: the regressors are block upper triangular. -/
theorem C86_regressor {s : State c} {R : String → Mat → Prop} (h : Source y c s R) (hU : UnitNumeric c) :
    ∀ f ∈ ["Yr", "reg_M", "reg_C", "reg_G"], ∃ Y : Matrix (Fin c.n) (Fin (10 * c.n)) ℝ, Returns R f Y ∧
      ∀ (a : Fin c.n) (b : Fin (10 * c.n)), (b : ℕ) / 10 < (a : ℕ) → Y a b = 0 := by
  obtain ⟨Y, YM, YC, YG, y1, y2, y3, y4, y5, y6⟩ := C59_inertial h hU
  have zM : ∀ (a : Fin c.n) (b : Fin (10 * c.n)), (b : ℕ) / 10 < (a : ℕ) → YM a b = 0 := fun a b hab => entry_zero fun p p' hp =>
    (congrFun (y6 p').1 a).trans ((row_congr (massOf_row hp s.q hab)).trans (congrFun (y6 p).1 a).symm)
  have zC : ∀ (a : Fin c.n) (b : Fin (10 * c.n)), (b : ℕ) / 10 < (a : ℕ) → YC a b = 0 := fun a b hab => entry_zero fun p p' hp =>
    (congrFun (y6 p').2.1 a).trans ((row_congr (coriolisOf_row hp s.q s.dq hab)).trans (congrFun (y6 p).2.1 a).symm)
  have zG : ∀ (a : Fin c.n) (b : Fin (10 * c.n)), (b : ℕ) / 10 < (a : ℕ) → YG a b = 0 := fun a b hab => entry_zero fun p p' hp =>
    (congrFun (y6 p').2.2.1 a).trans ((gravityOf_row hp s.q hab).trans (congrFun (y6 p).2.2.1 a).symm)
  intro f hf
  simp only [List.mem_cons, List.not_mem_nil, or_false] at hf
  rcases hf with rfl | rfl | rfl | rfl
  · refine ⟨_, y1, fun a b hab => ?_⟩
    rw [y5, Matrix.add_apply, Matrix.add_apply, zM a b hab, zC a b hab, zG a b hab, add_zero, add_zero]
  · exact ⟨_, y2, zM⟩
  · exact ⟨_, y3, zC⟩
  · exact ⟨_, y4, zG⟩

omit [Fl] in
/-- What does not change with the parameters of any single link before `a` does not change with those of all of them. -/
theorem of_links {α : Type*} {F : (ℕ → ℝ) → α} {a : ℕ} (h : ∀ i < a, ∀ p p', (∀ k, k / 10 ≠ i → p' k = p k) → F p' = F p) {p p' : ℕ → ℝ}
    (hp : ∀ k, a ≤ k / 10 → p' k = p k) : F p' = F p := by
  have key : ∀ m ≤ a, ∀ p' : ℕ → ℝ, (∀ k, m ≤ k / 10 → p' k = p k) → F p' = F p := by
    intro m
    induction m with
    | zero => exact fun _ p' hp => congrArg F (funext fun k => hp k (Nat.zero_le _))
    | succ m ih =>
      intro hm p' hp
      have h1 := h m hm p' (fun k => if k / 10 = m then p k else p' k) fun k hk => if_neg hk
      refine h1.symm.trans (ih (by omega) _ fun k hk => ?_)
      by_cases e : k / 10 = m
      · exact if_pos e
      · exact (if_neg e).trans (hp k (by omega))
  exact key a le_rfl p' hp

/-- C86: two robots that differ in the inertial parameters of links before joint `a` only have the same row `a` of the mass and Coriolis matrices and the same
gravity torque of this joint. -/
theorem C86_loads {p : ℕ → ℝ} {s : State c} {s' : State (withDyn c p)} {R R' : String → Mat → Prop} (h : Source y c s R) (h' : Source y' (withDyn c p) s' R')
    (hU : UnitNumeric c) (hU' : UnitNumeric (withDyn c p)) (hq : (s'.q : Fin c.n → ℝ) = s.q) (hdq : (s'.dq : Fin c.n → ℝ) = s.dq) {a : Fin c.n}
    (hp : ∀ k, (a : ℕ) ≤ k / 10 → p k = c.dyn k) :
    (∀ f ∈ ["M", "C", "C_std"], ∃ A A' : Matrix (Fin c.n) (Fin c.n) ℝ, Returns R f A ∧ Returns R' f A' ∧ ∀ j, A' a j = A a j) ∧
    ∃ v v' : Fin c.n → ℝ, ReturnsVec R "G" v ∧ ReturnsVec R' "G" v' ∧ v' a = v a := by
  obtain ⟨m1, m2, m3, m4⟩ := C58_matrices h hU
  obtain ⟨n1, n2, n3, n4⟩ := C58_matrices h' hU'
  have eM : ∀ j, massOf (withDyn c p) s.q a j = massOf c s.q a j := fun j =>
    of_links (F := fun p => massOf (withDyn c p) s.q a j) (p := c.dyn) (fun i hi p p' hp => massOf_row hp s.q hi j) hp
  have eC : ∀ j, coriolisOf (withDyn c p) s.q s.dq a j = coriolisOf c s.q s.dq a j := fun j =>
    of_links (F := fun p => coriolisOf (withDyn c p) s.q s.dq a j) (p := c.dyn) (fun i hi p p' hp => coriolisOf_row hp s.q s.dq hi j) hp
  have eG : gravityOf (withDyn c p) s.q a = gravityOf c s.q a :=
    of_links (F := fun p => gravityOf (withDyn c p) s.q a) (p := c.dyn) (fun i hi p p' hp => gravityOf_row hp s.q hi) hp
  have qM : massOf (withDyn c p) s'.q = massOf (withDyn c p) s.q := congrArg (fun q : Fin c.n → ℝ => massOf (withDyn c p) q) hq
  have qC : coriolisOf (withDyn c p) s'.q s'.dq = coriolisOf (withDyn c p) s.q s.dq :=
    (congrArg (fun q : Fin c.n → ℝ => coriolisOf (withDyn c p) q s'.dq) hq).trans (congrArg (fun v : Fin c.n → ℝ => coriolisOf (withDyn c p) s.q v) hdq)
  have qG : gravityOf (withDyn c p) s'.q = gravityOf (withDyn c p) s.q := congrArg (fun q : Fin c.n → ℝ => gravityOf (withDyn c p) q) hq
  rw [qM] at n1
  rw [qC] at n2 n3
  rw [qG] at n4
  refine ⟨fun f hf => ?_, _, _, m4, n4, eG⟩
  simp only [List.mem_cons, List.not_mem_nil, or_false] at hf
  rcases hf with rfl | rfl | rfl
  · exact ⟨_, _, m1, n1, eM⟩
  · exact ⟨_, _, m2, n2, eC⟩
  · exact ⟨_, _, m3, n3, eC⟩

end

/-! ## Examples -/

namespace Ex

/-- The arm with a longer second link, another mass of the first link and another tool. -/
def stretched : Conf := { armTuned with
  dh := fun i => if i = 4 then 7 else armTuned.dh i
  dyn := fun i => if i = 0 then 9 else armTuned.dyn i
  ee := fun i => if i = 2 then 5 else armTuned.ee i }

theorem unit_stretched : @UnitNumeric fl stretched := by
  rintro a (⟨i, h1, h2, rfl⟩ | ⟨i, h1, h2, h3, rfl⟩ | ⟨i, h1, h2, ⟨h3, rfl⟩ | ⟨h3, rfl⟩⟩)
  · rw [show stretched.dh (4 * i + 1) = armTuned.dh (4 * i + 1) from if_neg (by omega)]
    exact unit_arm _ (.inl ⟨i, h1, h2, rfl⟩)
  · rw [show stretched.dh (4 * i + 3) = armTuned.dh (4 * i + 3) from if_neg (by omega)]
    exact unit_arm _ (.inr (.inl ⟨i, h1, h2, h3, rfl⟩))
  · exact unit_arm _ (.inr (.inr ⟨i, h1, h2, .inl ⟨h3, rfl⟩⟩))
  · rw [show stretched.ee i = armTuned.ee i from if_neg (by omega)]
    exact unit_arm _ (.inr (.inr ⟨i, h1, h2, .inr ⟨h3, rfl⟩⟩))

theorem shares_stretched : SharesLinks armTuned stretched 1 :=
  ⟨by decide, by decide, fun _ _ => rfl, fun i hi => if_neg (by omega), fun _ _ => rfl, fun _ _ => rfl, fun _ _ _ => rfl⟩

/-- The same first coordinate, other values otherwise. -/
def stretchedState : State stretched :=
  ⟨fun i => if (i : ℕ) = 0 then 1 else 8, fun _ => 5, fun i => i, fun _ => 1, fun i => i, fun _ => 3, fun i => i, fun _ => 2, fun _ => 1, fun _ => -1⟩

/-- The frame and the Jacobian of the first link of the two. -/
example : ∃ r r', @Running fl (fileOf arm) armTuned armState r ∧ @Running fl (fileOf stretched) stretched stretchedState r' ∧
    (∃ T : Matrix (Fin 4) (Fin 4) ℝ, Returns (answers r) "T_0_1" T ∧ Returns (answers r') "T_0_1" T) ∧
    ∃ (J : Matrix (Fin 6) (Fin armTuned.n) ℝ) (J' : Matrix (Fin 6) (Fin stretched.n) ℝ), Returns (answers r) "J_cm_1" J ∧ Returns (answers r') "J_cm_1" J' ∧
      ∀ a, J' a ⟨0, by decide⟩ = J a ⟨0, by decide⟩ := by
  let _ := fl
  obtain ⟨r, hr⟩ := running_arm
  obtain ⟨r', hr'⟩ := C56_reachable (describes_fileOf (c := stretched) (fun h => nomatch h)) joints_arm (retuned_refl _) stretchedState
  have hq : ∀ j (h1 : j < armTuned.n) (h2 : j < stretched.n), j < 1 → stretchedState.q ⟨j, h2⟩ = armState.q ⟨j, h1⟩ := by
    intro j h1 h2 hj
    obtain rfl : j = 0 := by omega
    show (1 : ℝ) = ((0 : ℕ) : ℝ) + 1
    norm_num
  obtain ⟨J, J', h1, h2, h3⟩ := (C86_jacobians (.robot hr) (.robot hr') unit_arm unit_stretched shares_stretched hq (i := 0) (by omega)).2 rfl
  exact ⟨r, r', hr, hr', (C86_frames (.robot hr) (.robot hr') shares_stretched hq).2 1 le_rfl, J, J', h1, h2, fun a => h3 a 0 _ _ (by omega)⟩

/-- The second joint does not move the first link, and the ten parameters of the first link do not load it. -/
example : ∃ r, @Running fl (fileOf arm) armTuned armState r ∧
    (∃ J : Matrix (Fin 6) (Fin armTuned.n) ℝ, Returns (answers r) "J_1" J ∧ ∀ a, J a ⟨1, by decide⟩ = 0) ∧
    ∃ Y : Matrix (Fin armTuned.n) (Fin (10 * armTuned.n)) ℝ, Returns (answers r) "Yr" Y ∧ ∀ b : Fin 10, Y ⟨1, by decide⟩ ⟨b, lt_trans b.2 (by decide)⟩ = 0 := by
  let _ := fl
  obtain ⟨r, hr⟩ := running_arm
  obtain ⟨J, h1, h2⟩ := C86_columns (.robot hr) unit_arm (i := 0) (by decide) "J_" (by decide)
  obtain ⟨Y, h3, h4⟩ := C86_regressor (.robot hr) unit_arm "Yr" (by decide)
  exact ⟨r, hr, ⟨J, h1, fun a => h2 a _ Nat.one_pos⟩, Y, h3, fun b => h4 _ _ (by simp only; omega)⟩

/-- The arm with a heavier first link, whose centre of mass lies elsewhere. -/
abbrev heavier : Conf := withDyn armTuned fun k => if k < 2 then 50 else armTuned.dyn k

/-- The gravity torque of the second joint of the two. -/
example : ∃ r r', @Running fl (fileOf arm) armTuned armState r ∧ @Running fl (fileOf heavier) heavier ⟨armState.q, armState.dq, armState.ddq, armState.d3q,
      armState.dqr, armState.ddqr, armState.w, armState.x, armState.dx, armState.ddx⟩ r' ∧
    ∃ v v' : Fin armTuned.n → ℝ, ReturnsVec (answers r) "G" v ∧ ReturnsVec (answers r') "G" v' ∧ v' ⟨1, by decide⟩ = v ⟨1, by decide⟩ := by
  let _ := fl
  obtain ⟨r, hr⟩ := running_arm
  obtain ⟨r', hr'⟩ := C56_reachable (describes_fileOf (c := heavier) (fun h => nomatch h)) joints_arm (retuned_refl _) ⟨armState.q, armState.dq, armState.ddq,
    armState.d3q, armState.dqr, armState.ddqr, armState.w, armState.x, armState.dx, armState.ddx⟩
  obtain ⟨-, h1⟩ := C86_loads (a := ⟨1, by decide⟩) (.robot hr) (.robot hr') unit_arm unit_arm rfl rfl fun k hk => if_neg (by simp only at hk; omega)
  exact ⟨r, r', hr, hr', h1⟩

end Ex

end

end Thunder
