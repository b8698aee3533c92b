import Verif.Lemmas.Shipped
import Verif.Spec.Fleet

/-!
# The robot files: links, joints and angles
-/

namespace Thunder

noncomputable section

open Matrix Spec Robot Ship Spec.Ship

/-- A row of ten numbers with positive mass and positive semidefinite inertia that is positive about the axis. -/
def GoodRow (p : List ℝ) : Prop :=
  0 < p.getD 0 0 ∧ 0 < p.getD 4 0 ∧ 0 < p.getD 9 0 ∧ 0 ≤ p.getD 4 0 * p.getD 7 0 - p.getD 5 0 ^ 2 ∧ 0 ≤ p.getD 4 0 * p.getD 9 0 - p.getD 6 0 ^ 2 ∧
    (p.getD 4 0 * p.getD 8 0 - p.getD 5 0 * p.getD 6 0) ^ 2 ≤
      (p.getD 4 0 * p.getD 7 0 - p.getD 5 0 ^ 2) * (p.getD 4 0 * p.getD 9 0 - p.getD 6 0 ^ 2)

theorem form2_nonneg {P S Q y z : ℝ} (hP : 0 ≤ P) (hS : 0 ≤ S) (h : Q ^ 2 ≤ P * S) : 0 ≤ P * y ^ 2 + S * z ^ 2 + 2 * Q * y * z := by
  rcases hP.eq_or_lt with h0 | h0
  · have : Q = 0 := by
      have : Q ^ 2 ≤ 0 := by rw [← h0] at h; linarith
      nlinarith [sq_nonneg Q, pow_eq_zero_iff (M₀ := ℝ) (n := 2) (a := Q) (by decide), le_antisymm this (sq_nonneg Q)]
    rw [this, ← h0]
    nlinarith [mul_nonneg hS (sq_nonneg z)]
  · have : 0 ≤ P * (P * y ^ 2 + S * z ^ 2 + 2 * Q * y * z) := by
      nlinarith [sq_nonneg (P * y + Q * z), mul_nonneg (sub_nonneg.2 h) (sq_nonneg z)]
    exact nonneg_of_mul_nonneg_right this h0

theorem form3_nonneg {a b c d e f x y z : ℝ} (ha : 0 < a) (hP : 0 ≤ a * b - d ^ 2) (hS : 0 ≤ a * c - e ^ 2)
    (h : (a * f - d * e) ^ 2 ≤ (a * b - d ^ 2) * (a * c - e ^ 2)) :
    0 ≤ x * (a * x + d * y + e * z) + y * (d * x + b * y + f * z) + z * (e * x + f * y + c * z) := by
  have h1 := form2_nonneg (y := y) (z := z) hP hS h
  have : 0 ≤ a * (x * (a * x + d * y + e * z) + y * (d * x + b * y + f * z) + z * (e * x + f * y + c * z)) := by
    nlinarith [sq_nonneg (a * x + d * y + e * z)]
  exact nonneg_of_mul_nonneg_right this ha

theorem rows_entry (l : List (List ℝ)) (i j : ℕ) (hj : j < 10) : rows l (10 * i + j) = (l.getD i []).getD j 0 := by
  unfold rows
  rw [show (10 * i + j) / 10 = i by omega, show (10 * i + j) % 10 = j by omega]

theorem physical_rows {l : List (List ℝ)} (h : ∀ p ∈ l, GoodRow p) : Physical (rows l) l.length := by
  intro i hi
  have hg : GoodRow (l.getD i []) := h _ (by rw [List.getD_eq_getElem?_getD, List.getElem?_eq_getElem hi]; exact List.getElem_mem hi)
  obtain ⟨h0, h1, -, h3, h4, h5⟩ := hg
  refine ⟨?_, fun x => ?_⟩
  · have := rows_entry l i 0 (by decide)
    unfold mass
    rw [Nat.add_zero] at this
    rw [this]
    exact h0.le
  · have := form3_nonneg (x := x 0) (y := x 1) (z := x 2) h1 h3 h4 h5
    simp only [inertia, rows_entry l i _ (show 4 < 10 by decide), rows_entry l i _ (show 5 < 10 by decide), rows_entry l i _ (show 6 < 10 by decide),
      rows_entry l i _ (show 7 < 10 by decide), rows_entry l i _ (show 8 < 10 by decide), rows_entry l i _ (show 9 < 10 by decide)]
    simp only [dotProduct, mulVec, Fin.sum_univ_three, of_apply, cons_val_zero, cons_val_one, cons_val_two, cons_val', cons_val_fin_one, head_cons,
      tail_cons, empty_val']
    simpa using this

theorem own_rows {l : List (List ℝ)} (h : ∀ p ∈ l, GoodRow p) {i : ℕ} (hi : i < l.length) (t : Joint) : 0 < ownInertia (rows l) i t := by
  have hg : GoodRow (l.getD i []) := h _ (by rw [List.getD_eq_getElem?_getD, List.getElem?_eq_getElem hi]; exact List.getElem_mem hi)
  have hm : mass (rows l) i = (l.getD i []).getD 0 0 := by
    have := rows_entry l i 0 (by decide)
    rwa [Nat.add_zero] at this
  obtain ⟨h0, -, h2, -⟩ := hg
  cases t with
  | prismatic => show 0 < mass (rows l) i; rw [hm]; exact h0
  | revolute =>
    show 0 < inertia (rows l) i 2 2 + mass (rows l) i * (com (rows l) i 0 ^ 2 + com (rows l) i 1 ^ 2)
    have : inertia (rows l) i 2 2 = (l.getD i []).getD 9 0 := rows_entry l i 9 (by decide)
    rw [this, hm]
    have := mul_nonneg h0.le (add_nonneg (sq_nonneg (com (rows l) i 0)) (sq_nonneg (com (rows l) i 1)))
    linarith

theorem inFront_of {k j : ℕ} {f : ℕ → ℤ} {x : ℕ → ℝ} (h : (List.range k).filter (fun i => f i ≠ 0) = List.range j) (hj : j ≤ k) : InFront k f x := by
  refine ⟨(List.range' j (k - j)).map x, ?_⟩
  rw [h, ← List.map_append]
  congr 1
  obtain ⟨a, rfl⟩ := Nat.exists_eq_add_of_le hj
  rw [Nat.add_sub_cancel_left, List.range_eq_range', List.range_eq_range', ← List.range'_append_1, Nat.zero_add]

theorem at_nonneg {l : List ℝ} (h : ∀ x ∈ l, 0 ≤ x) (k : ℕ) : 0 ≤ at_ l k := by
  unfold at_
  rw [List.getD_eq_getElem?_getD]
  cases e : l[k]? with
  | none => exact le_rfl
  | some x => exact h x (List.mem_of_getElem? e)

theorem sound_of {y : Yaml} {c : Conf} (l : List (List ℝ)) (h : ∀ p ∈ l, GoodRow p) (e : c.dyn = rows l) (hn : l.length = c.n) {a b d : List ℝ}
    (ea : c.dl = at_ a) (eb : c.D = at_ b) (ed : c.Dm = at_ d) (h1 : ∀ x ∈ a, 0 ≤ x) (h2 : ∀ x ∈ b, 0 ≤ x) (h3 : ∀ x ∈ d, 0 ≤ x)
    (hd : Describes y c) (hj : JointsOk c) (ha : Aligned c) : Sound y c :=
  ⟨hd, hj, ha, by rw [e, ← hn]; exact physical_rows h, fun i hi => by rw [e]; exact own_rows h (by omega) _,
    fun k => by rw [ea]; exact at_nonneg h1 k, fun k => by rw [eb]; exact at_nonneg h2 k, fun k => by rw [ed]; exact at_nonneg h3 k⟩

/-- A list of non-negative numbers. -/
local macro "nonneg!" : term => `(by norm_num)
/-- The flags are all zero or all set. -/
local macro "front!" : term => `(by first | exact inFront_of (j := 0) (by decide +kernel) (by decide +kernel) | exact inFront_of (by decide +kernel) le_rfl)

theorem sound_RRR : Sound RRR RRRC := by
  refine sound_of (a := []) (b := []) (d := []) _ ?_ rfl rfl rfl rfl rfl nonneg! nonneg! nonneg! describes_RRR (by unfold JointsOk; decide) ⟨front!, front!, fun h => absurd h (by decide), fun h => absurd h (by decide), fun h => absurd h (by decide), fun h => absurd h (by decide)⟩
  simp only [List.forall_mem_cons]
  norm_num [GoodRow]

theorem sound_seaRRR : Sound seaRRR seaRRRC := by
  refine sound_of (b := []) _ ?_ rfl rfl rfl rfl rfl nonneg! nonneg! nonneg! describes_seaRRR (by unfold JointsOk; decide) ⟨front!, front!, fun _ => front!, fun _ => front!, fun _ => front!, fun _ => front!⟩
  simp only [List.forall_mem_cons]
  norm_num [GoodRow]

theorem sound_ego : Sound ego egoC := by
  refine sound_of (b := []) _ ?_ rfl rfl rfl rfl rfl nonneg! nonneg! nonneg! describes_ego (by unfold JointsOk; decide) ⟨front!, front!, fun _ => front!, fun _ => front!, fun _ => front!, fun _ => front!⟩
  simp only [List.forall_mem_cons]
  norm_num [GoodRow]

theorem sound_franka : Sound franka frankaC := by
  refine sound_of (b := []) (d := []) _ ?_ rfl rfl rfl rfl rfl nonneg! nonneg! nonneg! describes_franka (by unfold JointsOk; decide) ⟨front!, front!, fun h => absurd h (by decide), fun h => absurd h (by decide), fun h => absurd h (by decide), fun h => absurd h (by decide)⟩
  simp only [List.forall_mem_cons]
  norm_num [GoodRow]

theorem sound_wrist : Sound wrist wristC := by
  refine sound_of (b := []) _ ?_ rfl rfl rfl rfl rfl nonneg! nonneg! nonneg! describes_wrist (by unfold JointsOk; decide) ⟨front!, front!, fun _ => front!, fun _ => front!, fun _ => front!, fun _ => front!⟩
  simp only [List.forall_mem_cons]
  norm_num [GoodRow]

theorem sound_lewis : Sound lewis lewisC := by
  refine sound_of (b := []) (d := []) _ ?_ rfl rfl rfl rfl rfl nonneg! nonneg! nonneg! describes_lewis (by unfold JointsOk; decide) ⟨front!, front!, fun h => absurd h (by decide), fun h => absurd h (by decide), fun h => absurd h (by decide), fun h => absurd h (by decide)⟩
  simp only [List.forall_mem_cons]
  norm_num [GoodRow]

theorem sound_richard : Sound richard richardC := by
  refine sound_of (b := []) (d := []) _ ?_ rfl rfl rfl rfl rfl nonneg! nonneg! nonneg! describes_richard (by unfold JointsOk; decide) ⟨front!, front!, fun h => absurd h (by decide), fun h => absurd h (by decide), fun h => absurd h (by decide), fun h => absurd h (by decide)⟩
  simp only [List.forall_mem_cons]
  norm_num [GoodRow]

theorem sound_R3 : Sound R3 R3C := by
  refine sound_of (a := []) (b := []) (d := []) _ ?_ rfl rfl rfl rfl rfl nonneg! nonneg! nonneg! describes_R3 (by unfold JointsOk; decide) ⟨front!, front!, fun h => absurd h (by decide), fun h => absurd h (by decide), fun h => absurd h (by decide), fun h => absurd h (by decide)⟩
  simp only [List.forall_mem_cons]
  norm_num [GoodRow]

theorem sound_R5 : Sound R5 R5C := by
  refine sound_of (a := []) (b := []) (d := []) _ ?_ rfl rfl rfl rfl rfl nonneg! nonneg! nonneg! describes_R5 (by unfold JointsOk; decide) ⟨front!, front!, fun h => absurd h (by decide), fun h => absurd h (by decide), fun h => absurd h (by decide), fun h => absurd h (by decide)⟩
  simp only [List.forall_mem_cons]
  norm_num [GoodRow]

theorem sound_R7 : Sound R7 R7C := by
  refine sound_of (a := []) (b := []) (d := []) _ ?_ rfl rfl rfl rfl rfl nonneg! nonneg! nonneg! describes_R7 (by unfold JointsOk; decide) ⟨front!, front!, fun h => absurd h (by decide), fun h => absurd h (by decide), fun h => absurd h (by decide), fun h => absurd h (by decide)⟩
  simp only [List.forall_mem_cons]
  norm_num [GoodRow]

theorem sound_R9 : Sound R9 R9C := by
  refine sound_of (a := []) (b := []) (d := []) _ ?_ rfl rfl rfl rfl rfl nonneg! nonneg! nonneg! describes_R9 (by unfold JointsOk; decide) ⟨front!, front!, fun h => absurd h (by decide), fun h => absurd h (by decide), fun h => absurd h (by decide), fun h => absurd h (by decide)⟩
  simp only [List.forall_mem_cons]
  norm_num [GoodRow]

theorem sound_R9k : Sound R9k R9kC := by
  refine sound_of (a := []) (b := []) (d := []) _ ?_ rfl rfl rfl rfl rfl nonneg! nonneg! nonneg! describes_R9k (by unfold JointsOk; decide) ⟨front!, front!, fun h => absurd h (by decide), fun h => absurd h (by decide), fun h => absurd h (by decide), fun h => absurd h (by decide)⟩
  simp only [List.forall_mem_cons]
  norm_num [GoodRow]

theorem sound_R9n : Sound R9n R9nC := by
  refine sound_of (a := []) (b := []) (d := []) _ ?_ rfl rfl rfl rfl rfl nonneg! nonneg! nonneg! describes_R9n (by unfold JointsOk; decide) ⟨front!, front!, fun h => absurd h (by decide), fun h => absurd h (by decide), fun h => absurd h (by decide), fun h => absurd h (by decide)⟩
  simp only [List.forall_mem_cons]
  norm_num [GoodRow]

theorem sound_oldRRR : Sound oldRRR oldRRRC := by
  refine sound_of (a := []) (b := []) (d := []) _ ?_ rfl rfl rfl rfl rfl nonneg! nonneg! nonneg! describes_oldRRR (by unfold JointsOk; decide) ⟨front!, front!, fun h => absurd h (by decide), fun h => absurd h (by decide), fun h => absurd h (by decide), fun h => absurd h (by decide)⟩
  simp only [List.forall_mem_cons]
  norm_num [GoodRow]

theorem sound_oldSea : Sound oldSea oldSeaC := by
  refine sound_of (b := []) _ ?_ rfl rfl rfl rfl rfl nonneg! nonneg! nonneg! describes_oldSea (by unfold JointsOk; decide) ⟨front!, front!, fun _ => front!, fun _ => front!, fun _ => front!, fun _ => front!⟩
  simp only [List.forall_mem_cons]
  norm_num [GoodRow]

theorem sound_oldFranka : Sound oldFranka oldFrankaC := by
  refine sound_of (a := []) (b := []) (d := []) _ ?_ rfl rfl rfl rfl rfl nonneg! nonneg! nonneg! describes_oldFranka (by unfold JointsOk; decide) ⟨front!, front!, fun h => absurd h (by decide), fun h => absurd h (by decide), fun h => absurd h (by decide), fun h => absurd h (by decide)⟩
  simp only [List.forall_mem_cons]
  norm_num [GoodRow]

end

end Thunder
