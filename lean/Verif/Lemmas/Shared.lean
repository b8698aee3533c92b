import Verif.Spec.Shared
import Verif.Props.Remount

/-!
# Lemmas: what a link depends on
-/

open scoped Classical
open Matrix

namespace Thunder

noncomputable section

open Spec Robot

section

variable [Fl] {c c' : Conf} {k : ℕ}

theorem mount_shared (h : SharesLinks c c' k) : mountOf c'.fw2l c'.w2l = mountOf c.fw2l c.w2l := by
  have e : (fun k : Fin 3 => c'.w2l k) = fun k : Fin 3 => c.w2l k := funext fun j => h.w2l j (by omega)
  unfold mountOf
  rw [e, h.fw2l 3 (by omega) (by omega), h.fw2l 4 (by omega) (by omega), h.fw2l 5 (by omega) (by omega), h.w2l 3 (by omega), h.w2l 4 (by omega),
    h.w2l 5 (by omega)]

theorem link_shared (h : SharesLinks c c' k) {i : ℕ} (hi : i < k) (x : ℝ) : linkOf c' i x = linkOf c i x := by
  have hk : kindOf c' i = kindOf c i := by unfold kindOf; rw [h.types i hi]
  unfold linkOf
  rw [hk, h.dh (4 * i) (by omega), h.dh (4 * i + 1) (by omega), h.dh (4 * i + 2) (by omega), h.dh (4 * i + 3) (by omega), h.fdh (4 * i + 1) (by omega),
    h.fdh (4 * i + 3) (by omega)]

theorem linkFrame_shared (h : SharesLinks c c' k) {q : Fin c.n → ℝ} {q' : Fin c'.n → ℝ} {i : ℕ} (hi : i ≤ k)
    (hq : ∀ j (h1 : j < c.n) (h2 : j < c'.n), j < i → q' ⟨j, h2⟩ = q ⟨j, h1⟩) : linkFrame c' q' i = linkFrame c q i := by
  induction i with
  | zero =>
    exact mount_shared h
  | succ i ih =>
    have h1 : i < c.n := lt_of_lt_of_le hi h.le
    have h2 : i < c'.n := lt_of_lt_of_le hi h.le'
    rw [linkFrame, linkFrame, ih (by omega) fun j a b hj => hq j a b (by omega), dif_pos h1, dif_pos h2, hq i h1 h2 (by omega)]
    rw [link_shared h (by omega)]

omit [Fl] in
theorem shares_refl (hk : k ≤ c.n) : SharesLinks c c k := ⟨hk, hk, fun _ _ => rfl, fun _ _ => rfl, fun _ _ => rfl, fun _ _ => rfl, fun _ _ _ => rfl⟩

/-- The frame of a link depends on the coordinates of its joint and of the joints before only. -/
theorem linkFrame_congr {q q' : Fin c.n → ℝ} {i : ℕ} (hi : i < c.n) (hq : ∀ j : Fin c.n, (j : ℕ) ≤ i → q' j = q j) :
    linkFrame c q' (i + 1) = linkFrame c q (i + 1) :=
  linkFrame_shared (shares_refl (k := i + 1) hi) le_rfl fun j h1 _ hj => hq ⟨j, h1⟩ (by simp only; omega)

/-- The part of the Jacobian of a link that belongs to a shared joint. -/
theorem jacobian_shared (h : SharesLinks c c' k) {q : Fin c.n → ℝ} {q' : Fin c'.n → ℝ} {i : ℕ} (hi : i < k)
    (hq : ∀ j (h1 : j < c.n) (h2 : j < c'.n), j < k → q' ⟨j, h2⟩ = q ⟨j, h1⟩) (p : Fin 3 → ℝ) (a : Fin 6) {j : ℕ} (h1 : j < c.n) (h2 : j < c'.n) (hj : j < k) :
    jacobianAt (fun q => linkFrame c' q (i + 1)) p q' a ⟨j, h2⟩ = jacobianAt (fun q => linkFrame c q (i + 1)) p q a ⟨j, h1⟩ := by
  have e0 : linkFrame c' q' (i + 1) = linkFrame c q (i + 1) := linkFrame_shared h hi fun l a b hl => hq l a b (by omega)
  have e1 : ∀ t, linkFrame c' (Function.update q' ⟨j, h2⟩ t) (i + 1) = linkFrame c (Function.update q ⟨j, h1⟩ t) (i + 1) := fun t =>
    linkFrame_shared h hi fun l a b hl => by
      by_cases e : l = j
      · subst e; rw [Function.update_self, Function.update_self]
      · rw [Function.update_of_ne (by simpa [Fin.ext_iff] using e), Function.update_of_ne (by simpa [Fin.ext_iff] using e)]
        exact hq l a b (by omega)
  unfold jacobianAt
  simp only [Matrix.of_apply, e0, e1, hq j h1 h2 hj]

/-- The Jacobian of a link has zero columns for the joints after it. -/
theorem jacobian_later {q : Fin c.n → ℝ} {i : ℕ} (hi : i < c.n) (p : Fin 3 → ℝ) (a : Fin 6) {j : Fin c.n} (hj : i < (j : ℕ)) :
    jacobianAt (fun q => linkFrame c q (i + 1)) p q a j = 0 := by
  have e1 : ∀ t, linkFrame c (Function.update q j t) (i + 1) = linkFrame c q (i + 1) := fun t => linkFrame_congr hi fun l hl =>
    Function.update_of_ne (by rintro rfl; omega) _ _
  unfold jacobianAt
  simp only [Matrix.of_apply, e1, deriv_const]
  split_ifs
  · rfl
  · have : (Matrix.of fun _ _ : Fin 3 => (0 : ℝ)) = 0 := rfl
    rw [this, zero_mul]
    generalize (⟨(a : ℕ) - 3, _⟩ : Fin 3) = b
    fin_cases b <;> rfl

end

/-! ## Energies of single links -/

section

variable {n : ℕ} {T : ℕ → (Fin n → ℝ) → Matrix (Fin 4) (Fin 4) ℝ}

/-- The kinetic energy of link `i`. -/
def linkKin (T : ℕ → (Fin n → ℝ) → Matrix (Fin 4) (Fin 4) ℝ) (p : ℕ → ℝ) (i : ℕ) (q v : Fin n → ℝ) : ℝ :=
  kinetic (mass p i) (inertia p i) (rot (T i q)) (fun a => deriv (fun s : ℝ => point (T i (q + s • v)) (com p i) a) 0)
    (vee (Matrix.of (fun a b => deriv (fun s : ℝ => rot (T i (q + s • v)) a b) 0) * (rot (T i q))ᵀ))

variable {p p' : ℕ → ℝ} {i : ℕ} (hT : ∀ q q' : Fin n → ℝ, (∀ j : Fin n, (j : ℕ) ≤ i → q' j = q j) → T i q' = T i q)

include hT in
theorem linkKin_congr {q q' v v' : Fin n → ℝ} (hq : ∀ j : Fin n, (j : ℕ) ≤ i → q' j = q j) (hv : ∀ j : Fin n, (j : ℕ) ≤ i → v' j = v j) :
    linkKin T p i q' v' = linkKin T p i q v := by
  have e : ∀ s : ℝ, T i (q' + s • v') = T i (q + s • v) := fun s => hT _ _ fun j hj => by
    simp only [Pi.add_apply, Pi.smul_apply, hq j hj, hv j hj]
  unfold linkKin
  simp only [e, hT q q' hq]

include hT in
theorem linkKin_still {q v : Fin n → ℝ} (hv : ∀ j : Fin n, (j : ℕ) ≤ i → v j = 0) : linkKin T p i q v = 0 := by
  rw [linkKin_congr hT (q := q) (v := 0) (fun _ _ => rfl) hv]
  have : (Matrix.of fun _ _ : Fin 3 => (0 : ℝ)) = 0 := rfl
  have h0 : vee 0 = 0 := by ext b; fin_cases b <;> rfl
  simp only [linkKin, smul_zero, add_zero, deriv_const, this, zero_mul, h0, kinetic, zero_dotProduct]
  simp [dotProduct]

theorem link_same (hp : ∀ k, k / 10 ≠ i → p' k = p k) {j : ℕ} (hj : j ≠ i) : mass p' j = mass p j ∧ com p' j = com p j ∧ inertia p' j = inertia p j := by
  have e : ∀ l < 10, p' (10 * j + l) = p (10 * j + l) := fun l hl => hp _ (by omega)
  refine ⟨e 0 (by omega), ?_, ?_⟩
  · unfold com; rw [e 1 (by omega), e 2 (by omega), e 3 (by omega)]
  · unfold inertia; rw [e 4 (by omega), e 5 (by omega), e 6 (by omega), e 7 (by omega), e 8 (by omega), e 9 (by omega)]

theorem kinetic_split (hi : i < n) (hp : ∀ k, k / 10 ≠ i → p' k = p k) (q v : Fin n → ℝ) :
    kineticEnergy p' n T q v = kineticEnergy p n T q v + (linkKin T p' i q v - linkKin T p i q v) := by
  have e : ∀ p, kineticEnergy p n T q v = linkKin T p i q v + ∑ j ∈ (Finset.range n).erase i, linkKin T p j q v := fun p =>
    (Finset.add_sum_erase _ _ (Finset.mem_range.2 hi)).symm
  have e2 : ∑ j ∈ (Finset.range n).erase i, linkKin T p' j q v = ∑ j ∈ (Finset.range n).erase i, linkKin T p j q v :=
    Finset.sum_congr rfl fun j hj => by
      obtain ⟨h1, h2, h3⟩ := link_same hp (Finset.ne_of_mem_erase hj)
      unfold linkKin
      rw [h1, h2, h3]
  rw [e p', e p, e2]
  ring

/-- What the masses of link `i` add to the mass matrix. -/
def linkMass (T : ℕ → (Fin n → ℝ) → Matrix (Fin 4) (Fin 4) ℝ) (p p' : ℕ → ℝ) (i : ℕ) (q : Fin n → ℝ) : Matrix (Fin n) (Fin n) ℝ :=
  quadratic fun v => linkKin T p' i q v - linkKin T p i q v

theorem mass_split (hi : i < n) (hp : ∀ k, k / 10 ≠ i → p' k = p k) (q : Fin n → ℝ) :
    quadratic (kineticEnergy p' n T q) = quadratic (kineticEnergy p n T q) + linkMass T p p' i q := by
  ext a b
  simp only [quadratic, linkMass, Matrix.of_apply, Matrix.add_apply, kinetic_split (T := T) hi hp]
  ring

include hT in
theorem linkMass_row {a : Fin n} (ha : i < (a : ℕ)) (q : Fin n → ℝ) (b : Fin n) : linkMass T p p' i q a b = 0 := by
  have e0 : ∀ j : Fin n, (j : ℕ) ≤ i → (Pi.single a 1 : Fin n → ℝ) j = 0 := fun j hj => Pi.single_eq_of_ne (by rintro rfl; omega) _
  have e1 : ∀ p, linkKin T p i q (Pi.single a 1 + Pi.single b 1) = linkKin T p i q (Pi.single b 1) := fun p =>
    linkKin_congr hT (fun _ _ => rfl) fun j hj => by rw [Pi.add_apply, e0 j hj, zero_add]
  simp only [linkMass, quadratic, Matrix.of_apply, e1, linkKin_still hT e0]
  ring

include hT in
theorem linkMass_update {a : Fin n} (ha : i < (a : ℕ)) (q : Fin n → ℝ) (x : ℝ) : linkMass T p p' i (Function.update q a x) = linkMass T p p' i q := by
  have e : ∀ p v, linkKin T p i (Function.update q a x) v = linkKin T p i q v := fun p v =>
    linkKin_congr hT (fun j hj => Function.update_of_ne (by rintro rfl; omega) _ _) fun _ _ => rfl
  simp only [linkMass, e]

include hT in
/-- The Christoffel symbols of a row do not depend on the links before. -/
theorem christoffel_row (hi : i < n) (hp : ∀ k, k / 10 ≠ i → p' k = p k) {a : Fin n} (ha : i < (a : ℕ)) (q v : Fin n → ℝ) (b : Fin n) :
    christoffel (fun q => quadratic (kineticEnergy p' n T q)) q v a b = christoffel (fun q => quadratic (kineticEnergy p n T q)) q v a b := by
  unfold christoffel
  simp only [Matrix.of_apply, mass_split (T := T) hi hp, Matrix.add_apply, linkMass_row hT ha, add_zero, linkMass_update hT ha, deriv_add_const]

include hT in
theorem potential_row {g : Fin 3 → ℝ} (hi : i < n) (hp : ∀ k, k / 10 ≠ i → p' k = p k) {a : Fin n} (ha : i < (a : ℕ)) (q : Fin n → ℝ) :
    deriv (fun x => potential p' g n fun i => T i (Function.update q a x)) (q a) = deriv (fun x => potential p g n fun i => T i (Function.update q a x)) (q a) := by
  have e : ∀ p x, potential p g n (fun i => T i (Function.update q a x)) =
      -∑ j ∈ (Finset.range n).erase i, mass p j * (g ⬝ᵥ point (T j (Function.update q a x)) (com p j)) + -(mass p i * (g ⬝ᵥ point (T i q) (com p i))) := by
    intro p x
    have e0 : T i (Function.update q a x) = T i q := hT _ _ fun j hj => Function.update_of_ne (by rintro rfl; omega) _ _
    unfold potential
    rw [← Finset.add_sum_erase _ _ (Finset.mem_range.2 hi)]
    simp only [e0]
    ring
  have e2 : ∀ x, ∑ j ∈ (Finset.range n).erase i, mass p' j * (g ⬝ᵥ point (T j (Function.update q a x)) (com p' j)) =
      ∑ j ∈ (Finset.range n).erase i, mass p j * (g ⬝ᵥ point (T j (Function.update q a x)) (com p j)) := fun x =>
    Finset.sum_congr rfl fun j hj => by
      obtain ⟨h1, h2, -⟩ := link_same hp (Finset.ne_of_mem_erase hj)
      rw [h1, h2]
  simp only [e, e2, deriv_add_const]

end

end

end Thunder
