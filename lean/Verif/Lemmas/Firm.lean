import Verif.Lemmas.Fleet
import Verif.Spec.Accuracy

/-!
# The robot files: the inertia of each link at its own joint is not small
-/

namespace Thunder

noncomputable section

open Matrix Spec Robot Ship Spec.Ship

/-- Size of the link given by a row of ten numbers, with lengths replaced by sums of absolute values. -/
def rowSize (p : List ℝ) : ℝ := |p.getD 0 0| * (1 + (|p.getD 1 0| + |p.getD 2 0| + |p.getD 3 0|)) ^ 2 +
  (|p.getD 4 0| + |p.getD 7 0| + |p.getD 9 0| + 2 * (|p.getD 5 0| + |p.getD 6 0| + |p.getD 8 0|))

/-- Mass and moment of inertia of the row exceed `1e-12` of its size. -/
def FirmRow (p : List ℝ) : Prop := 1e-12 * rowSize p < p.getD 0 0 ∧ 1e-12 * rowSize p < p.getD 9 0

theorem len_le (v : Fin 3 → ℝ) : len v ≤ |v 0| + |v 1| + |v 2| := by
  unfold len
  refine Real.sqrt_le_iff.2 ⟨by positivity, ?_⟩
  simp only [dotProduct, Fin.sum_univ_three]
  nlinarith [abs_nonneg (v 0), abs_nonneg (v 1), abs_nonneg (v 2), sq_abs (v 0), sq_abs (v 1), sq_abs (v 2), mul_nonneg (abs_nonneg (v 0)) (abs_nonneg (v 1)),
    mul_nonneg (abs_nonneg (v 0)) (abs_nonneg (v 2)), mul_nonneg (abs_nonneg (v 1)) (abs_nonneg (v 2))]

theorem ownSize_nonneg (c : Conf) (i : ℕ) : 0 ≤ ownSize c i :=
  add_nonneg (mul_nonneg (abs_nonneg _) (sq_nonneg _)) (Finset.sum_nonneg fun _ _ => Finset.sum_nonneg fun _ _ => abs_nonneg _)

theorem ownSize_rows {c : Conf} {l : List (List ℝ)} (e : c.dyn = rows l) (i : ℕ) : ownSize c i ≤ rowSize (l.getD i []) := by
  have hm : mass (rows l) i = (l.getD i []).getD 0 0 := by
    have := rows_entry l i 0 (by decide)
    rwa [Nat.add_zero] at this
  have hc : len (com (rows l) i) ≤ |(l.getD i []).getD 1 0| + |(l.getD i []).getD 2 0| + |(l.getD i []).getD 3 0| := by
    have := len_le (com (rows l) i)
    rwa [show com (rows l) i 0 = _ from rows_entry l i 1 (by decide), show com (rows l) i 1 = _ from rows_entry l i 2 (by decide),
      show com (rows l) i 2 = _ from rows_entry l i 3 (by decide)] at this
  have hl : 0 ≤ len (com (rows l) i) := Real.sqrt_nonneg _
  unfold ownSize rowSize
  rw [e, hm]
  refine add_le_add (mul_le_mul_of_nonneg_left (pow_le_pow_left₀ (by linarith) (by linarith) 2) (abs_nonneg _)) (le_of_eq ?_)
  simp only [entries, Fin.sum_univ_three, inertia, rows_entry l i _ (show 4 < 10 by decide), rows_entry l i _ (show 5 < 10 by decide),
    rows_entry l i _ (show 6 < 10 by decide), rows_entry l i _ (show 7 < 10 by decide), rows_entry l i _ (show 8 < 10 by decide),
    rows_entry l i _ (show 9 < 10 by decide), of_apply, cons_val_zero, cons_val_one, cons_val_two, cons_val', cons_val_fin_one, tail_cons,
    empty_val', vecHead]
  ring

/-- At most nine joints, and the inertia of each link at its own joint exceeds `1e-12` of the size of the link. -/
def Firm (c : Conf) : Prop := c.n ≤ 9 ∧ ∀ i < c.n, 1e-12 * ownSize c i < ownInertia c.dyn i (kindOf c i)

theorem firm_of {c : Conf} (l : List (List ℝ)) (h : ∀ p ∈ l, FirmRow p) (e : c.dyn = rows l) (hn : l.length = c.n) (h9 : c.n ≤ 9) : Firm c := by
  refine ⟨h9, fun i hi => ?_⟩
  have hi' : i < l.length := by omega
  obtain ⟨h0, h1⟩ := h (l.getD i []) (by rw [List.getD_eq_getElem?_getD, List.getElem?_eq_getElem hi']; exact List.getElem_mem hi')
  have hs := mul_le_mul_of_nonneg_left (ownSize_rows e i) (show (0 : ℝ) ≤ 1e-12 by norm_num)
  have hm : mass (rows l) i = (l.getD i []).getD 0 0 := by
    have := rows_entry l i 0 (by decide)
    rwa [Nat.add_zero] at this
  rw [e]
  cases kindOf c i with
  | prismatic => show _ < mass (rows l) i; rw [hm]; linarith
  | revolute =>
    show _ < inertia (rows l) i 2 2 + mass (rows l) i * (com (rows l) i 0 ^ 2 + com (rows l) i 1 ^ 2)
    rw [show inertia (rows l) i 2 2 = _ from rows_entry l i 9 (by decide), hm]
    have hr : 0 ≤ rowSize (l.getD i []) := (ownSize_nonneg c i).trans (ownSize_rows e i)
    have := mul_nonneg (show 0 ≤ (l.getD i []).getD 0 0 by linarith [mul_nonneg (show (0 : ℝ) ≤ 1e-12 by norm_num) hr])
      (add_nonneg (sq_nonneg (com (rows l) i 0)) (sq_nonneg (com (rows l) i 1)))
    linarith

theorem firm_fleet : ∀ p ∈ fleet, Firm p.2.2 := by
  unfold fleet
  simp only [List.forall_mem_cons]
  refine ⟨?_, ?_, ?_, ?_, ?_, ?_, ?_, ?_, ?_, ?_, ?_, ?_, ?_, ?_, ?_, ?_, fun _ h => absurd h List.not_mem_nil⟩ <;>
    (refine firm_of _ ?_ rfl rfl (by decide); simp only [List.forall_mem_cons]; norm_num [FirmRow, rowSize])

end

end Thunder
