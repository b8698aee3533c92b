import Verif.Lemmas.Inertia

/-!
# DYN/REG conversion: C27, C28

`vecN (10 * n) p` is the vector of the `10·n` reals `p 0, p 1, …`; entry `10·i` is the mass of link `i`.
-/

namespace Thunder

/-- C27: `update_inertial_REG` stores mass, first moment of mass and inertia at the frame origin of every link. -/
theorem C27_reg (n : ℕ) (p : ℕ → ℝ) : regOfDyn n (vecN (10 * n) p) = vecN (10 * n) (Spec.reg p) := regOfDyn_vecN n p

/-- C27: with non-zero masses `update_inertial_DYN` undoes `update_inertial_REG`. -/
theorem C27_dyn_reg (n : ℕ) (p : ℕ → ℝ) (h : ∀ i < n, p (10 * i) ≠ 0) :
    dynOfReg n (regOfDyn n (vecN (10 * n) p)) = vecN (10 * n) p := by
  rw [regOfDyn_vecN, dynOfReg_vecN]
  · exact vecN_congr fun k hk => dynPar_reg h hk
  · intro i hi
    have := reg_eq_linParOf p i (l := 0) (by decide)
    rw [add_zero] at this
    rw [this]
    exact h i hi

/-- C27: with non-zero masses `update_inertial_REG` undoes `update_inertial_DYN`. -/
theorem C27_reg_dyn (n : ℕ) (p : ℕ → ℝ) (h : ∀ i < n, p (10 * i) ≠ 0) :
    regOfDyn n (dynOfReg n (vecN (10 * n) p)) = vecN (10 * n) p := by
  rw [dynOfReg_vecN h, regOfDyn_vecN]
  exact vecN_congr fun k hk => reg_dynPar h hk

/-- C27: a zero mass makes `update_inertial_DYN` divide by zero; the centre of mass and the inertia of that link are lost. -/
theorem C27_zero_mass (n : ℕ) (p : ℕ → ℝ) {i : ℕ} (hi : i < n) (h : p (10 * i) = 0) {k : ℕ} (hk : k < 10) (hk' : k ≠ 0) :
    (dynOfReg n (vecN (10 * n) p)).getD (10 * i + k) (some 0) = none := by
  have e : dynOfReg n (vecN (10 * n) p) =
      (List.range (10 * n)).map fun m => (linkDyn steinerGen (seg (vecN (10 * n) p) (m / 10))).getD (m % 10) none := by
    rw [map_range_ten]
    refine List.flatMap_congr fun i _ => ?_
    simp [linkDyn, up6, List.range_succ]
    norm_num [Nat.add_mod, Nat.add_div]
  have hs : seg (vecN (10 * n) p) i 0 = some 0 := by rw [seg_vecN (by omega), add_zero, h]
  rw [e, List.getD_eq_getElem?_getD, List.getElem?_map, List.getElem?_range (by omega)]
  simp only [Option.map_some, Option.getD_some, show (10 * i + k) / 10 = i by omega, show (10 * i + k) % 10 = k by omega]
  have : k = 1 ∨ k = 2 ∨ k = 3 ∨ k = 4 ∨ k = 5 ∨ k = 6 ∨ k = 7 ∨ k = 8 ∨ k = 9 := by omega
  rcases this with rfl | rfl | rfl | rfl | rfl | rfl | rfl | rfl | rfl <;>
    simp [linkDyn, hs, up6, steinerGen, scale3, mul3, tr3, hatN]

/-- C27: the round trip from DYN holds exactly for the vectors without zero mass. -/
theorem C27_iff (n : ℕ) (p : ℕ → ℝ) :
    dynOfReg n (regOfDyn n (vecN (10 * n) p)) = vecN (10 * n) p ↔ ∀ i < n, p (10 * i) ≠ 0 := by
  refine ⟨fun h i hi h0 => ?_, C27_dyn_reg n p⟩
  have h1 := C27_zero_mass n (Spec.reg p) hi (by
    have := reg_eq_linParOf p i (l := 0) (by decide)
    rw [add_zero] at this
    rw [this]; exact h0) (k := 1) (by decide) (by decide)
  rw [← regOfDyn_vecN, h, List.getD_eq_getElem?_getD] at h1
  simp [vecN, show 10 * i + 1 < 10 * n by omega] at h1

/-- C28: generator and wrapper store the same REG vector, for every `par_DYN` (also with NaN entries or of another size). -/
theorem C28_reg (n : ℕ) (p : List Num) : regOfDynW n p = regOfDyn n p := regOfDynW_eq n p

/-- C28: generator and wrapper store the same DYN vector, for every `par_REG`. -/
theorem C28_dyn (n : ℕ) (p : List Num) : dynOfRegW n p = dynOfReg n p := dynOfRegW_eq n p

/-- Two links with masses 2 and −1 (a negative mass, as met during identification). -/
example : dynOfReg 2 (regOfDyn 2 (vecN 20 fun k => if k < 10 then 2 + k else 9 - k)) =
    vecN 20 fun k => if k < 10 then 2 + (k : ℝ) else 9 - k :=
  C27_dyn_reg 2 _ fun i hi => by
    have : i = 0 ∨ i = 1 := by omega
    rcases this with rfl | rfl <;> norm_num

/-- The REG entry `Ixx` of a link of mass 2 with centre of mass `(3,4,5)` and `Ixx = 6`: `6 + 2·(4² + 5²)`. -/
example : (regOfDyn 1 (vecN 10 fun k => 2 + (k : ℝ))).getD 4 none = some 88 := by
  rw [C27_reg 1 fun k => 2 + (k : ℝ)]
  simp [vecN, Spec.reg, Spec.linPar, Spec.originInertia, Spec.mass, Spec.com, Spec.inertia, hat, Matrix.mul_apply,
    Fin.sum_univ_three]
  norm_num

/-- A massless link loses its centre of mass. -/
example : (dynOfReg 1 (vecN 10 fun k => (k : ℝ))).getD 1 (some 0) = none :=
  C27_zero_mass 1 (fun k => (k : ℝ)) (i := 0) (by decide) (by norm_num) (k := 1) (by decide) (by decide)

end Thunder
