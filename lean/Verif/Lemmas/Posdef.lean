import Verif.Spec.Balance
import Verif.Lemmas.SystemDyn
import Mathlib.LinearAlgebra.Matrix.ToLinearEquiv

/-!
# When the mass matrix is positive definite
-/

open Matrix

namespace Thunder

noncomputable section

variable [Fl] {B : Base} (ρ : Var → ℝ)

namespace Base

/-- The kinetic energy of link `i` when the joints before it are at rest. -/
theorem quad_own (hB : B.WF) (hU : B.UnitAngles) {i : ℕ} (hi : i < B.n) {v : Fin B.n → ℝ} (hv : ∀ j : Fin B.n, (j : ℕ) < i → v j = 0) :
    v ⬝ᵥ SX.val ρ (B.Mi i) B.n B.n *ᵥ v = v ⟨i, hi⟩ ^ 2 * (B.massV ρ i * (B.pri i + B.rev i * (B.comV ρ i 0 ^ 2 + B.comV ρ i 1 ^ 2)) +
      B.rev i * B.inertiaV ρ i 2 2) := by
  have hR : IsRot (B.rotV ρ (i + 1)) := isRot_R0 hB ρ hU (by omega)
  have hone : ∀ f : Fin B.n → ℝ, (∑ j : Fin B.n, (if (j : ℕ) ≤ i then f j else 0) * v j) = f ⟨i, hi⟩ * v ⟨i, hi⟩ := by
    intro f
    rw [Finset.sum_eq_single (⟨i, hi⟩ : Fin B.n)]
    · simp
    · intro j _ hj
      by_cases h : (j : ℕ) < i
      · rw [hv j h, mul_zero]
      · have : ¬ (j : ℕ) ≤ i := fun h' => hj (Fin.ext (by show (j : ℕ) = i; omega))
        rw [if_neg this, zero_mul]
    · exact fun h => absurd (Finset.mem_univ _) h
  have hax : B.axis ρ (i + 1) = B.rotV ρ (i + 1) *ᵥ e3 := rfl
  have hl : B.jv ρ i *ᵥ v = v ⟨i, hi⟩ • B.rotV ρ (i + 1) *ᵥ (B.pri i • e3 + B.rev i • (hat e3 *ᵥ B.comV ρ i)) := by
    have h1 : B.jv ρ i *ᵥ v = v ⟨i, hi⟩ • SX.vec ρ (B.posCol (B.Ocm i) i) 3 := by
      ext a
      simp only [jv, Jcv, mulVec, dotProduct, val_posJac]
      rw [hone fun j => SX.vec ρ (B.posCol (B.Ocm i) j) 3 a, Pi.smul_apply, smul_eq_mul, mul_comm]
    have h2 : SX.vec ρ (B.Ocm i) 3 - SX.vec ρ (B.P0 (i + 1)) 3 = B.rotV ρ (i + 1) *ᵥ B.comV ρ i := by
      rw [vec_Ocm]; exact add_sub_cancel_left _ _
    rw [h1, vec_posCol, h2, hax, mulVec_mulVec, ← hR.mul_hat, ← mulVec_mulVec, mulVec_add, mulVec_smul, mulVec_smul]
  have hw : B.jw ρ i *ᵥ v = v ⟨i, hi⟩ • B.rotV ρ (i + 1) *ᵥ (B.rev i • e3) := by
    have h1 : B.jw ρ i *ᵥ v = v ⟨i, hi⟩ • SX.vec ρ (B.orCol i) 3 := by
      ext a
      simp only [jw, Jcw, mulVec, dotProduct, val_orJac]
      rw [hone fun j => SX.vec ρ (B.orCol j) 3 a, Pi.smul_apply, smul_eq_mul, mul_comm]
    rw [h1, vec_orCol, hax, mulVec_smul]
  have hn : ∀ x : Fin 3 → ℝ, (B.rotV ρ (i + 1) *ᵥ x) ⬝ᵥ (B.rotV ρ (i + 1) *ᵥ x) = x ⬝ᵥ x := by
    intro x
    rw [dotProduct_mulVec, vecMul_mulVec, hR.orth, vecMul_one]
  rw [quad_Mi, hl, hw]
  rw [mulVec_smul, mulVec_mulVec, hR.orth, one_mulVec, smul_dotProduct, dotProduct_smul, hn, mulVec_smul, smul_dotProduct, dotProduct_smul]
  simp only [smul_eq_mul, dotProduct, mulVec, Fin.sum_univ_three, Pi.add_apply, Pi.smul_apply, hat, e3]
  unfold pri rev
  split_ifs <;> simp <;> ring

theorem quad_own' (hB : B.WF) (hU : B.UnitAngles) {i : ℕ} (hi : i < B.n) {v : Fin B.n → ℝ} (hv : ∀ j : Fin B.n, (j : ℕ) < i → v j = 0) :
    v ⬝ᵥ SX.val ρ (B.Mi i) B.n B.n *ᵥ v = v ⟨i, hi⟩ ^ 2 * Spec.ownInertia (B.dynV ρ) i (B.kind i) := by
  rw [quad_own ρ hB hU hi hv, massV_eq, comV_eq, inertiaV_eq]
  unfold pri rev kind
  split_ifs <;> simp only [Spec.ownInertia] <;> ring

theorem nonneg_Mi (hp : Spec.Physical (B.dynV ρ) B.n) {i : ℕ} (hi : i < B.n) (v : Fin B.n → ℝ) :
    0 ≤ v ⬝ᵥ SX.val ρ (B.Mi i) B.n B.n *ᵥ v := by
  obtain ⟨h1, h2⟩ := hp i hi
  rw [Base.quad_Mi, Base.massV_eq, Base.inertiaV_eq]
  refine add_nonneg (mul_nonneg h1 ?_) (h2 _)
  exact Finset.sum_nonneg fun a _ => mul_self_nonneg _

/-- The first joint that moves gives a positive contribution. -/
theorem posdef_M (hB : B.WF) (hU : B.UnitAngles) (hp : Spec.Physical (B.dynV ρ) B.n)
    (ho : ∀ i < B.n, 0 < Spec.ownInertia (B.dynV ρ) i (B.kind i)) {v : Fin B.n → ℝ} (hv : v ≠ 0) : 0 < v ⬝ᵥ SX.val ρ B.M B.n B.n *ᵥ v := by
  classical
  have hex : ∃ i, ∃ h : i < B.n, v ⟨i, h⟩ ≠ 0 := by
    by_contra hc
    refine hv (funext fun j => ?_)
    by_contra hj
    exact hc ⟨j, j.2, hj⟩
  obtain ⟨hi, hne⟩ := Nat.find_spec hex
  have hz : ∀ j : Fin B.n, (j : ℕ) < Nat.find hex → v j = 0 := by
    intro j hj
    by_contra hc
    exact Nat.find_min hex hj ⟨j.2, hc⟩
  rw [quad_M]
  refine Finset.sum_pos' (fun i hi => nonneg_Mi ρ hp (Finset.mem_range.1 hi) v) ⟨_, Finset.mem_range.2 hi, ?_⟩
  rw [quad_own' ρ hB hU hi hz]
  exact mul_pos (by positivity) (ho _ hi)

/-- A last link without inertia about its own joint. -/
theorem last_null (hB : B.WF) (hU : B.UnitAngles) (hn : 0 < B.n) (ho : Spec.ownInertia (B.dynV ρ) (B.n - 1) (B.kind (B.n - 1)) = 0) :
    Pi.single (⟨B.n - 1, by omega⟩ : Fin B.n) (1 : ℝ) ⬝ᵥ SX.val ρ B.M B.n B.n *ᵥ Pi.single (⟨B.n - 1, by omega⟩ : Fin B.n) 1 = 0 := by
  rw [quad_M]
  refine Finset.sum_eq_zero fun i hi => ?_
  have hi' := Finset.mem_range.1 hi
  rw [quad_own' ρ hB hU hi' fun j hj => Pi.single_eq_of_ne (fun h => by
    have := congrArg Fin.val h
    simp only at this
    omega) 1]
  by_cases h : i = B.n - 1
  · subst h; rw [ho, mul_zero]
  · rw [Pi.single_eq_of_ne (fun h' => h (congrArg Fin.val h'))]
    ring

end Base

/-! ### The mechanism of a file -/

omit [Fl] in
/-- A null direction of a non-negative form is in the kernel. -/
theorem mulVec_zero_of {n : ℕ} {A : Matrix (Fin n) (Fin n) ℝ} (hs : Aᵀ = A) (hp : ∀ x, 0 ≤ x ⬝ᵥ A *ᵥ x) {v : Fin n → ℝ} (hv : v ⬝ᵥ A *ᵥ v = 0) :
    A *ᵥ v = 0 := by
  have hc : ∀ w : Fin n → ℝ, w ⬝ᵥ A *ᵥ v = v ⬝ᵥ A *ᵥ w := by
    intro w
    rw [dotProduct_mulVec, ← mulVec_transpose, hs, dotProduct_comm]
  set w := A *ᵥ v with hw
  have key : ∀ t : ℝ, 0 ≤ w ⬝ᵥ A *ᵥ w + 2 * t * (w ⬝ᵥ w) := by
    intro t
    have h := hp (w + t • v)
    rw [mulVec_add, mulVec_smul, add_dotProduct, dotProduct_add, dotProduct_add, smul_dotProduct, smul_dotProduct, dotProduct_smul, dotProduct_smul, hv,
      ← hc w] at h
    simp only [smul_eq_mul, ← hw] at h
    linarith
  have hnn : 0 ≤ w ⬝ᵥ w := Finset.sum_nonneg fun i _ => mul_self_nonneg _
  have h0 : w ⬝ᵥ w = 0 := by
    by_contra hne
    have hpos : 0 < w ⬝ᵥ w := lt_of_le_of_ne hnn (Ne.symm hne)
    have h := key (-(w ⬝ᵥ A *ᵥ w + 1) / (2 * (w ⬝ᵥ w)))
    rw [show 2 * (-(w ⬝ᵥ A *ᵥ w + 1) / (2 * (w ⬝ᵥ w))) * (w ⬝ᵥ w) = -(w ⬝ᵥ A *ᵥ w + 1) by field_simp] at h
    linarith
  exact dotProduct_self_eq_zero.1 h0

open Spec Robot

variable {c : Conf}

omit [Fl] in
theorem physical_env (s : State c) (hp : Physical c.dyn c.n) : Physical ((base c).dynV (env c s)) c.n := by
  intro i hi
  have e : ∀ j < 10, (base c).dynV (env c s) (10 * i + j) = c.dyn (10 * i + j) := fun j hj => dynV_env s (by omega)
  have hm : mass ((base c).dynV (env c s)) i = mass c.dyn i := e 0 (by omega)
  have hI : inertia ((base c).dynV (env c s)) i = inertia c.dyn i := by
    unfold inertia
    rw [e 4 (by omega), e 5 (by omega), e 6 (by omega), e 7 (by omega), e 8 (by omega), e 9 (by omega)]
  rw [hm, hI]
  exact hp i hi

theorem own_env (s : State c) {i : ℕ} (hi : i < c.n) :
    ownInertia ((base c).dynV (env c s)) i ((base c).kind i) = ownInertia c.dyn i (kindOf c i) := by
  have e : ∀ j < 10, (base c).dynV (env c s) (10 * i + j) = c.dyn (10 * i + j) := fun j hj => dynV_env s (by omega)
  have hm : mass ((base c).dynV (env c s)) i = mass c.dyn i := e 0 (by omega)
  have hI : inertia ((base c).dynV (env c s)) i = inertia c.dyn i := by
    unfold inertia
    rw [e 4 (by omega), e 5 (by omega), e 6 (by omega), e 7 (by omega), e 8 (by omega), e 9 (by omega)]
  have hc : com ((base c).dynV (env c s)) i = com c.dyn i := com_congr (fun _ hk => dynV_env s hk) hi
  rw [kind_base]
  cases kindOf c i
  · exact hm
  · show _ + _ * (_ + _) = _ + _ * (_ + _)
    rw [hm, hI, hc]

theorem massOf_pos (hn : 0 < c.n) (ht : Typed c) (hU : UnitNumeric c) (s : State c) (hp : Physical c.dyn c.n)
    (ho : ∀ i < c.n, 0 < ownInertia c.dyn i (kindOf c i)) {v : Fin c.n → ℝ} (hv : v ≠ 0) : 0 < v ⬝ᵥ massOf c s.q *ᵥ v := by
  rw [← val_M hn ht hU s]
  exact Base.posdef_M (B := base c) (env c s) (base_wf hn ht) (base_unit hU) (physical_env s hp) (fun i hi => (own_env s hi).symm ▸ ho i hi) hv

theorem massOf_det (hn : 0 < c.n) (ht : Typed c) (hU : UnitNumeric c) (s : State c) (hp : Physical c.dyn c.n)
    (ho : ∀ i < c.n, 0 < ownInertia c.dyn i (kindOf c i)) : (massOf c s.q).det ≠ 0 := by
  intro h0
  obtain ⟨v, hv, e⟩ := Matrix.exists_mulVec_eq_zero_iff.2 h0
  have := massOf_pos hn ht hU s hp ho hv
  rw [e, dotProduct_zero] at this
  exact lt_irrefl _ this

end

end Thunder
