import Verif.Spec.Payload
import Verif.Props.Shared

/-!
# Property C87: bodies fixed to the links

What `get` returns for the dynamics of a robot each link of which consists of two bodies fixed to each other, for instance of the link proper and of a payload,
compared with what it returns for the robots made of one and of the other bodies; likewise for the getters of the classes generated from them.
-/

open scoped Classical
open Matrix

namespace Thunder

noncomputable section

open Spec Robot SX

/-- The linear parameters of bodies fixed to each other add. -/
theorem reg_joined {n : ℕ} {p p₁ p₂ : ℕ → ℝ} (h : Joined n p p₁ p₂) {k : ℕ} (hk : k < 10 * n) : reg p k = reg p₁ k + reg p₂ k := by
  have hi : k / 10 < n := by omega
  have hm := h.mass _ hi
  have hc := h.com _ hi
  have hI := h.inertia _ hi
  unfold reg
  generalize mass p (k / 10) = m at *
  generalize mass p₁ (k / 10) = m₁ at *
  generalize mass p₂ (k / 10) = m₂ at *
  generalize com p (k / 10) = x at *
  generalize com p₁ (k / 10) = x₁ at *
  generalize com p₂ (k / 10) = x₂ at *
  generalize inertia p (k / 10) = I at *
  generalize inertia p₁ (k / 10) = I₁ at *
  generalize inertia p₂ (k / 10) = I₂ at *
  subst hI
  have c0 := congrFun hc 0
  have c1 := congrFun hc 1
  have c2 := congrFun hc 2
  simp only [Pi.add_apply, Pi.smul_apply, smul_eq_mul] at c0 c1 c2
  have hl : k % 10 < 10 := Nat.mod_lt _ (by decide)
  generalize k % 10 = l at *
  subst hm
  interval_cases l <;>
    simp [linPar, originInertia, steiner, hat, vecMulVec, Matrix.mul_apply, Fin.sum_univ_three, dotProduct]
  · linear_combination c0
  · linear_combination c1
  · linear_combination c2
  · linear_combination 2 * x 1 * c1 + 2 * x 2 * c2
  · linear_combination -x 1 * c0 - x 0 * c1
  · linear_combination -x 2 * c0 - x 0 * c2
  · linear_combination 2 * x 0 * c0 + 2 * x 2 * c2
  · linear_combination -x 2 * c1 - x 1 * c2
  · linear_combination 2 * x 0 * c0 + 2 * x 1 * c1

section

variable [Fl] {y y₁ y₂ : Yaml} {c : Conf} {p₁ p₂ : ℕ → ℝ}

section

variable (hn : 0 < c.n) (ht : Typed c) (hU : UnitNumeric c) (s : State c) (h : Joined c.n c.dyn p₁ p₂)
include hn ht hU h

theorem massOf_joined {A₁ A₂ : Matrix (Fin c.n) (Fin c.n) ℝ} (h₁ : A₁ = massOf (withDyn c p₁) s.q) (h₂ : A₂ = massOf (withDyn c p₂) s.q) :
    massOf c s.q = A₁ + A₂ := by
  have e : (fun k : Fin (10 * c.n) => reg c.dyn k) = (fun k : Fin (10 * c.n) => reg p₁ k) + fun k : Fin (10 * c.n) => reg p₂ k := funext fun k => reg_joined h k.2
  refine Matrix.ext_of_mulVec_single fun j => ?_
  have k : ∀ p, SX.val (env c { s with ddqr := Pi.single j 1 }) (base c).regM c.n (10 * c.n) *ᵥ (fun k => reg p k) = _ :=
    fun p => reg_M hn ht hU { s with ddqr := Pi.single j 1 } p
  have k0 := k c.dyn
  rw [e, mulVec_add, k p₁, k p₂] at k0
  rw [Matrix.add_mulVec]
  subst h₁ h₂
  exact k0.symm

theorem coriolisOf_joined {A₁ A₂ : Matrix (Fin c.n) (Fin c.n) ℝ} (h₁ : A₁ = coriolisOf (withDyn c p₁) s.q s.dq) (h₂ : A₂ = coriolisOf (withDyn c p₂) s.q s.dq) :
    coriolisOf c s.q s.dq = A₁ + A₂ := by
  have e : (fun k : Fin (10 * c.n) => reg c.dyn k) = (fun k : Fin (10 * c.n) => reg p₁ k) + fun k : Fin (10 * c.n) => reg p₂ k := funext fun k => reg_joined h k.2
  refine Matrix.ext_of_mulVec_single fun j => ?_
  have k : ∀ p, SX.val (env c { s with dqr := Pi.single j 1 }) (base c).regC c.n (10 * c.n) *ᵥ (fun k => reg p k) = _ :=
    fun p => reg_C hn ht hU { s with dqr := Pi.single j 1 } p
  have k0 := k c.dyn
  rw [e, mulVec_add, k p₁, k p₂] at k0
  rw [Matrix.add_mulVec]
  subst h₁ h₂
  exact k0.symm

theorem gravityOf_joined {v₁ v₂ : Fin c.n → ℝ} (h₁ : v₁ = gravityOf (withDyn c p₁) s.q) (h₂ : v₂ = gravityOf (withDyn c p₂) s.q) : gravityOf c s.q = v₁ + v₂ := by
  have e : (fun k : Fin (10 * c.n) => reg c.dyn k) = (fun k : Fin (10 * c.n) => reg p₁ k) + fun k : Fin (10 * c.n) => reg p₂ k := funext fun k => reg_joined h k.2
  have k0 := reg_G hn ht hU s c.dyn
  rw [e, mulVec_add, reg_G hn ht hU s p₁, reg_G hn ht hU s p₂] at k0
  subst h₁ h₂
  exact k0.symm

end

/-- C87: the mass and Coriolis matrices and the gravity torques of a robot whose links are made of two bodies each are the sums of those of the robots made of
the one and of the other bodies. -/
theorem C87 {s : State c} {s₁ : State (withDyn c p₁)} {s₂ : State (withDyn c p₂)} {R R₁ R₂ : String → Mat → Prop} (h : Source y c s R)
    (h₁ : Source y₁ (withDyn c p₁) s₁ R₁) (h₂ : Source y₂ (withDyn c p₂) s₂ R₂) (hU : UnitNumeric c) (hj : Joined c.n c.dyn p₁ p₂)
    (q₁ : (s₁.q : Fin c.n → ℝ) = s.q) (v₁ : (s₁.dq : Fin c.n → ℝ) = s.dq) (q₂ : (s₂.q : Fin c.n → ℝ) = s.q) (v₂ : (s₂.dq : Fin c.n → ℝ) = s.dq) :
    (∀ f ∈ ["M", "C", "C_std"], ∃ A₁ A₂ : Matrix (Fin c.n) (Fin c.n) ℝ, Returns R₁ f A₁ ∧ Returns R₂ f A₂ ∧ Returns R f (A₁ + A₂)) ∧
    ∃ v₁ v₂ : Fin c.n → ℝ, ReturnsVec R₁ "G" v₁ ∧ ReturnsVec R₂ "G" v₂ ∧ ReturnsVec R "G" (v₁ + v₂) := by
  have key : ∀ {y : Yaml} {p : ℕ → ℝ} {s' : State (withDyn c p)} {R : String → Mat → Prop}, Source y (withDyn c p) s' R → (s'.q : Fin c.n → ℝ) = s.q →
      (s'.dq : Fin c.n → ℝ) = s.dq → Returns R "M" (massOf (withDyn c p) s.q) ∧ Returns R "C" (coriolisOf (withDyn c p) s.q s.dq) ∧
        Returns R "C_std" (coriolisOf (withDyn c p) s.q s.dq) ∧ ReturnsVec R "G" (gravityOf (withDyn c p) s.q) := by
    intro y p s' R h' e1 e2
    obtain ⟨n1, n2, n3, n4⟩ := C58_matrices h' hU
    have qM : massOf (withDyn c p) s'.q = massOf (withDyn c p) s.q := congrArg (fun q : Fin c.n → ℝ => massOf (withDyn c p) q) e1
    have qC : coriolisOf (withDyn c p) s'.q s'.dq = coriolisOf (withDyn c p) s.q s.dq :=
      (congrArg (fun q : Fin c.n → ℝ => coriolisOf (withDyn c p) q s'.dq) e1).trans (congrArg (fun v : Fin c.n → ℝ => coriolisOf (withDyn c p) s.q v) e2)
    have qG : gravityOf (withDyn c p) s'.q = gravityOf (withDyn c p) s.q := congrArg (fun q : Fin c.n → ℝ => gravityOf (withDyn c p) q) e1
    rw [qM] at n1
    rw [qC] at n2 n3
    rw [qG] at n4
    exact ⟨n1, n2, n3, n4⟩
  obtain ⟨m1, m2, m3, m4⟩ := C58_matrices h hU
  obtain ⟨a1, a2, a3, a4⟩ := key h₁ q₁ v₁
  obtain ⟨b1, b2, b3, b4⟩ := key h₂ q₂ v₂
  refine ⟨fun f hf => ?_, _, _, a4, b4, gravityOf_joined h.pos h.typed hU s hj rfl rfl ▸ m4⟩
  simp only [List.mem_cons, List.not_mem_nil, or_false] at hf
  rcases hf with rfl | rfl | rfl
  · exact ⟨_, _, a1, b1, massOf_joined h.pos h.typed hU s hj rfl rfl ▸ m1⟩
  · exact ⟨_, _, a2, b2, coriolisOf_joined h.pos h.typed hU s hj rfl rfl ▸ m2⟩
  · exact ⟨_, _, a3, b3, coriolisOf_joined h.pos h.typed hU s hj rfl rfl ▸ m3⟩

end

/-! ## Examples -/

namespace Ex

/-- A body of mass 1 on the x axis, a point mass of the same mass on the other side of the origin, and the two together. -/
def bodyPar (k : ℕ) : ℝ := [1, 1, 0, 0, 1, 0, 0, 1, 0, 1].getD (k % 10) 0
def loadPar (k : ℕ) : ℝ := [1, -1, 0, 0, 0, 0, 0, 0, 0, 0].getD (k % 10) 0
def loadedPar (k : ℕ) : ℝ := [2, 0, 0, 0, 1, 0, 0, 3, 0, 3].getD (k % 10) 0

theorem joined_loaded (n : ℕ) : Joined n loadedPar bodyPar loadPar := by
  have e : ∀ i l, (10 * i + l) % 10 = l % 10 := fun i l => by omega
  have e0 : ∀ i, (10 * i) % 10 = 0 := fun i => by omega
  refine ⟨fun i _ => ?_, fun i _ => ?_, fun i _ => ?_⟩
  · simp only [mass, loadedPar, bodyPar, loadPar, e0]
    norm_num
  · ext a
    fin_cases a <;> simp [mass, com, loadedPar, bodyPar, loadPar, e0, e]
  · ext a b
    fin_cases a <;> fin_cases b <;>
      simp [mass, com, inertia, steiner, vecMulVec, dotProduct, Fin.sum_univ_three, loadedPar, bodyPar, loadPar, e0, e] <;> norm_num

/-- The arm with such links, and its state. -/
abbrev bearing (p : ℕ → ℝ) : Conf := withDyn armTuned p
abbrev bearingState (p : ℕ → ℝ) : State (bearing p) := ⟨armState.q, armState.dq, armState.ddq, armState.d3q, armState.dqr, armState.ddqr, armState.w, armState.x,
  armState.dx, armState.ddx⟩

/-- The mass matrices of the three. -/
example : ∃ r r₁ r₂, @Running fl (fileOf (bearing loadedPar)) (bearing loadedPar) (bearingState _) r ∧
    @Running fl (fileOf (bearing bodyPar)) (bearing bodyPar) (bearingState _) r₁ ∧ @Running fl (fileOf (bearing loadPar)) (bearing loadPar) (bearingState _) r₂ ∧
    ∃ A₁ A₂ : Matrix (Fin armTuned.n) (Fin armTuned.n) ℝ, Returns (answers r₁) "M" A₁ ∧ Returns (answers r₂) "M" A₂ ∧ Returns (answers r) "M" (A₁ + A₂) := by
  let _ := fl
  have run := fun p => C56_reachable (describes_fileOf (c := bearing p) (fun h => nomatch h)) joints_arm (retuned_refl _) (bearingState p)
  obtain ⟨r, hr⟩ := run loadedPar
  obtain ⟨r₁, h₁⟩ := run bodyPar
  obtain ⟨r₂, h₂⟩ := run loadPar
  exact ⟨r, r₁, r₂, hr, h₁, h₂,
    (C87 (c := bearing loadedPar) (p₁ := bodyPar) (p₂ := loadPar) (.robot hr) (.robot h₁) (.robot h₂) unit_arm (joined_loaded _) rfl rfl rfl rfl).1 "M" (by decide)⟩

end Ex

end

end Thunder
