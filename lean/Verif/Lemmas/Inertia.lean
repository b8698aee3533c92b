import Verif.Model.Inertia
import Verif.Spec.Inertia

/-!
# DYN/REG conversion
-/

open Matrix

namespace Thunder

noncomputable section

/-- The list of the first `k` entries of a real parameter vector. -/
def vecN (k : ℕ) (p : ℕ → ℝ) : List Num := (List.range k).map fun j => some (p j)

theorem vecN_congr {k : ℕ} {p p' : ℕ → ℝ} (h : ∀ j < k, p j = p' j) : vecN k p = vecN k p' :=
  List.map_congr_left fun j hj => by rw [h j (List.mem_range.mp hj)]

@[simp] theorem length_vecN (k : ℕ) (p : ℕ → ℝ) : (vecN k p).length = k := by simp [vecN]

theorem map_range_ten {α : Type*} (n : ℕ) (f : ℕ → α) :
    (List.range (10 * n)).map f = (List.range n).flatMap fun i => (List.range 10).map fun l => f (10 * i + l) := by
  induction n with
  | zero => rfl
  | succ n ih =>
    rw [Nat.mul_succ, List.range_add, List.map_append, ih, List.range_succ (n := n), List.flatMap_append]
    simp [Function.comp_def]

theorem seg_vecN {n : ℕ} {p : ℕ → ℝ} {i k : ℕ} (h : 10 * i + k < 10 * n) : seg (vecN (10 * n) p) i k = some (p (10 * i + k)) := by
  simp [seg, vecN, List.getD, h]

theorem steinerWrap_eq (m : Num) (c : Fin 3 → Num) : steinerWrap m c = steinerGen m c := by
  funext a b
  simp only [steinerWrap, steinerGen, mul3, scale3, tr3]
  generalize h0 : c 0 = x, h1 : c 1 = y, h2 : c 2 = z
  fin_cases a <;> fin_cases b <;> simp [hatN, h0, h1, h2] <;> cases m <;> cases x <;> cases y <;> cases z <;> simp <;> ring

/-- Spec parameters of one link as a function of its ten DYN entries. -/
def linParOf (p : ℕ → ℝ) : ℕ → ℝ :=
  Spec.linPar (p 0) ![p 1, p 2, p 3] !![p 4, p 5, p 6; p 5, p 7, p 8; p 6, p 8, p 9]

theorem linkReg_some (p : ℕ → ℝ) : linkReg steinerGen (fun k => some (p k)) = (List.range 10).map fun l => some (linParOf p l) := by
  simp [linkReg, up6, steinerGen, scale3, mul3, tr3, hatN, List.range_succ, linParOf, Spec.linPar, Spec.originInertia, hat,
    Matrix.mul_apply, Fin.sum_univ_three]

theorem linkReg_congr {st : Num → (Fin 3 → Num) → M3} {p p' : ℕ → Num} (h : ∀ k < 10, p k = p' k) :
    linkReg st p = linkReg st p' := by
  simp only [linkReg, h 0 (by omega), h 1 (by omega), h 2 (by omega), h 3 (by omega), h 4 (by omega), h 5 (by omega),
    h 6 (by omega), h 7 (by omega), h 8 (by omega), h 9 (by omega)]

theorem linkDyn_congr {st : Num → (Fin 3 → Num) → M3} {p p' : ℕ → Num} (h : ∀ k < 10, p k = p' k) :
    linkDyn st p = linkDyn st p' := by
  simp only [linkDyn, h 0 (by omega), h 1 (by omega), h 2 (by omega), h 3 (by omega), h 4 (by omega), h 5 (by omega),
    h 6 (by omega), h 7 (by omega), h 8 (by omega), h 9 (by omega)]

/-- The inverse map on one link. -/
def invPar (p : ℕ → ℝ) : ℕ → ℝ :=
  let c : Fin 3 → ℝ := ![p 1 / p 0, p 2 / p 0, p 3 / p 0]
  let S := p 0 • ((hat c)ᵀ * hat c)
  fun k => [p 0, c 0, c 1, c 2, p 4 - S 0 0, p 5 - S 0 1, p 6 - S 0 2, p 7 - S 1 1, p 8 - S 1 2, p 9 - S 2 2].getD k 0

theorem linkDyn_some {p : ℕ → ℝ} (h : p 0 ≠ 0) :
    linkDyn steinerGen (fun k => some (p k)) = (List.range 10).map fun l => some (invPar p l) := by
  simp [linkDyn, Num.div_some h, up6, steinerGen, scale3, mul3, tr3, hatN, List.range_succ, invPar, hat,
    Matrix.mul_apply, Fin.sum_univ_three]

theorem invPar_linPar {p : ℕ → ℝ} (h : p 0 ≠ 0) {k : ℕ} (hk : k < 10) : invPar (linParOf p) k = p k := by
  have h1 : ∀ x : ℝ, p 0 * x / p 0 = x := fun x => mul_div_cancel_left₀ x h
  have : k = 0 ∨ k = 1 ∨ k = 2 ∨ k = 3 ∨ k = 4 ∨ k = 5 ∨ k = 6 ∨ k = 7 ∨ k = 8 ∨ k = 9 := by omega
  rcases this with rfl | rfl | rfl | rfl | rfl | rfl | rfl | rfl | rfl | rfl <;>
    simp [invPar, linParOf, Spec.linPar, Spec.originInertia, h1]

theorem linPar_invPar {p : ℕ → ℝ} (h : p 0 ≠ 0) {k : ℕ} (hk : k < 10) : linParOf (invPar p) k = p k := by
  have h1 : ∀ x : ℝ, p 0 * (x / p 0) = x := fun x => mul_div_cancel₀ x h
  have : k = 0 ∨ k = 1 ∨ k = 2 ∨ k = 3 ∨ k = 4 ∨ k = 5 ∨ k = 6 ∨ k = 7 ∨ k = 8 ∨ k = 9 := by omega
  rcases this with rfl | rfl | rfl | rfl | rfl | rfl | rfl | rfl | rfl | rfl <;>
    simp [invPar, linParOf, Spec.linPar, Spec.originInertia, h1]

theorem reg_eq_linParOf (p : ℕ → ℝ) (i : ℕ) {l : ℕ} (h : l < 10) : Spec.reg p (10 * i + l) = linParOf (fun k => p (10 * i + k)) l := by
  rw [Spec.reg, show (10 * i + l) / 10 = i by omega, show (10 * i + l) % 10 = l by omega]
  simp [linParOf, Spec.mass, Spec.com, Spec.inertia]

theorem regOfDyn_vecN (n : ℕ) (p : ℕ → ℝ) : regOfDyn n (vecN (10 * n) p) = vecN (10 * n) (Spec.reg p) := by
  rw [regOfDyn, vecN.eq_1 (10 * n) (Spec.reg p), map_range_ten]
  refine List.flatMap_congr fun i hi => ?_
  have hi' := List.mem_range.mp hi
  rw [linkReg_congr (p' := fun k => some (p (10 * i + k))) fun k hk => seg_vecN (by omega), linkReg_some]
  exact List.map_congr_left fun l hl => by rw [reg_eq_linParOf p i (List.mem_range.mp hl)]

/-- Spec inverse: the DYN parameters of a REG vector. -/
def dynPar (p : ℕ → ℝ) (k : ℕ) : ℝ := invPar (fun l => p (10 * (k / 10) + l)) (k % 10)

theorem dynOfReg_vecN {n : ℕ} {p : ℕ → ℝ} (h : ∀ i < n, p (10 * i) ≠ 0) :
    dynOfReg n (vecN (10 * n) p) = vecN (10 * n) (dynPar p) := by
  rw [dynOfReg, vecN.eq_1 (10 * n) (dynPar p), map_range_ten]
  refine List.flatMap_congr fun i hi => ?_
  have hi' := List.mem_range.mp hi
  rw [linkDyn_congr (p' := fun k => some (p (10 * i + k))) fun k hk => seg_vecN (by omega), linkDyn_some (h i hi')]
  refine List.map_congr_left fun l hl => ?_
  have := List.mem_range.mp hl
  rw [dynPar, show (10 * i + l) / 10 = i by omega, show (10 * i + l) % 10 = l by omega]

theorem dynPar_reg {n : ℕ} {p : ℕ → ℝ} (h : ∀ i < n, p (10 * i) ≠ 0) {k : ℕ} (hk : k < 10 * n) : dynPar (Spec.reg p) k = p k := by
  have hl : k % 10 < 10 := Nat.mod_lt _ (by decide)
  have hc : ∀ l < 10, Spec.reg p (10 * (k / 10) + l) = linParOf (fun j => p (10 * (k / 10) + j)) l :=
    fun l hl => reg_eq_linParOf p _ hl
  have e : dynPar (Spec.reg p) k = invPar (linParOf fun j => p (10 * (k / 10) + j)) (k % 10) := by
    simp only [dynPar, invPar, hc _ (show 0 < 10 by decide), hc _ (show 1 < 10 by decide), hc _ (show 2 < 10 by decide),
      hc _ (show 3 < 10 by decide), hc _ (show 4 < 10 by decide), hc _ (show 5 < 10 by decide), hc _ (show 6 < 10 by decide),
      hc _ (show 7 < 10 by decide), hc _ (show 8 < 10 by decide), hc _ (show 9 < 10 by decide)]
  rw [e, invPar_linPar (h (k / 10) (by omega)) hl]
  congr 1
  omega

theorem reg_dynPar {n : ℕ} {p : ℕ → ℝ} (h : ∀ i < n, p (10 * i) ≠ 0) {k : ℕ} (hk : k < 10 * n) : Spec.reg (dynPar p) k = p k := by
  have hl : k % 10 < 10 := Nat.mod_lt _ (by decide)
  have hk' : 10 * (k / 10) + k % 10 = k := by omega
  have hc : ∀ l < 10, dynPar p (10 * (k / 10) + l) = invPar (fun j => p (10 * (k / 10) + j)) l := by
    intro l hl
    rw [dynPar, show (10 * (k / 10) + l) / 10 = k / 10 by omega, show (10 * (k / 10) + l) % 10 = l by omega]
  have := reg_eq_linParOf (dynPar p) (k / 10) hl
  rw [hk'] at this
  have e : linParOf (fun j => dynPar p (10 * (k / 10) + j)) = linParOf (invPar fun j => p (10 * (k / 10) + j)) := by
    simp only [linParOf, hc _ (show 0 < 10 by decide), hc _ (show 1 < 10 by decide), hc _ (show 2 < 10 by decide),
      hc _ (show 3 < 10 by decide), hc _ (show 4 < 10 by decide), hc _ (show 5 < 10 by decide), hc _ (show 6 < 10 by decide),
      hc _ (show 7 < 10 by decide), hc _ (show 8 < 10 by decide), hc _ (show 9 < 10 by decide)]
  rw [this, e, linPar_invPar (h (k / 10) (by omega)) hl, hk']

theorem regOfDynW_eq (n : ℕ) (p : List Num) : regOfDynW n p = regOfDyn n p := by
  have : steinerWrap = steinerGen := by funext m c; exact steinerWrap_eq m c
  rw [regOfDynW, regOfDyn, this]
theorem dynOfRegW_eq (n : ℕ) (p : List Num) : dynOfRegW n p = dynOfReg n p := by
  have : steinerWrap = steinerGen := by funext m c; exact steinerWrap_eq m c
  rw [dynOfRegW, dynOfReg, this]

end

end Thunder
