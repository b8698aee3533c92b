import Verif.Model.Rounding
import Verif.Spec.Double

/-!
# The arithmetic of the type `double`: C76
-/

open scoped Classical

namespace Thunder

noncomputable section

open Spec

theorem lastDigit_le {x : ℝ} (hx : |x| < 2 ^ 1024) : lastDigit x ≤ 971 := by
  refine max_le ?_ (by norm_num)
  rcases eq_or_ne x 0 with rfl | h0
  · rw [abs_zero, Int.log_zero_right]
    norm_num
  have h := Int.zpow_log_le_self (b := 2) (by norm_num) (abs_pos.2 h0)
  have h1 : (2 : ℝ) ^ Int.log 2 |x| < 2 ^ (1024 : ℤ) := by
    refine lt_of_le_of_lt (by simpa using h) ?_
    rw [show (1024 : ℤ) = ((1024 : ℕ) : ℤ) by norm_num, zpow_natCast]
    exact hx
  have := (zpow_lt_zpow_iff_right₀ (by norm_num : (1 : ℝ) < 2)).1 h1
  omega

theorem scaled_lt (x : ℝ) : |x / 2 ^ lastDigit x| < 2 ^ 53 := by
  have hp : (0 : ℝ) < 2 ^ lastDigit x := by positivity
  rw [abs_div, abs_of_pos hp, div_lt_iff₀ hp]
  have h := Int.lt_zpow_succ_log_self (b := 2) (by norm_num) |x|
  refine lt_of_lt_of_le (by simpa using h) ?_
  rw [show (2 : ℝ) ^ 53 = 2 ^ (53 : ℤ) by norm_num, ← zpow_add₀ two_ne_zero]
  refine zpow_le_zpow_right₀ one_le_two ?_
  have : Int.log 2 |x| - 52 ≤ lastDigit x := le_max_left _ _
  omega

/-- C76: the result of an operation of `Machine.double` that does not overflow is a number of the type `double`, and none is closer to the exact result. -/
theorem C76_double {x : ℝ} (hx : |x| < 2 ^ 1024 - 2 ^ 970) : IsDouble (nearest x) ∧ ∀ y, IsDouble y → |x - nearest x| ≤ |x - y| := by
  have hx' : |x| < 2 ^ 1024 := hx.trans_le (sub_le_self _ (by positivity))
  have hE := lastDigit_le hx'
  have hE' : -1074 ≤ lastDigit x := le_max_right _ _
  have hs := scaled_lt x
  have hr := abs_sub_round (x / 2 ^ lastDigit x)
  have hp : (0 : ℝ) < 2 ^ lastDigit x := by positivity
  have hxz : x / 2 ^ lastDigit x * 2 ^ lastDigit x = x := div_mul_cancel₀ _ hp.ne'
  unfold nearest
  rw [if_pos hx']
  generalize hz : x / 2 ^ lastDigit x = z at hs hr hxz ⊢
  set E := lastDigit x with hEd
  constructor
  · rcases lt_or_ge |round z| (2 ^ 53) with h | h
    · exact ⟨round z, E, h, hE', hE, rfl⟩
    · have h1 : |(round z : ℝ)| < 2 ^ 53 + 1 := by
        have := abs_sub_abs_le_abs_sub (round z : ℝ) z
        rw [abs_sub_comm] at this
        linarith
      have h2 : |round z| = 2 ^ 53 := by
        refine le_antisymm (Int.lt_add_one_iff.1 ?_) h
        have : ((|round z| : ℤ) : ℝ) < ((2 ^ 53 + 1 : ℤ) : ℝ) := by
          rw [Int.cast_abs]
          refine h1.trans_eq ?_
          push_cast
          norm_num
        exact_mod_cast this
      have h3 : E ≠ 971 := by
        intro h3
        have h4 : (2 : ℝ) ^ 53 - 1 / 2 ≤ |z| := by
          have h5 : |(round z : ℝ)| = 2 ^ 53 := by exact_mod_cast h2
          have := abs_sub_abs_le_abs_sub (round z : ℝ) z
          rw [abs_sub_comm] at this
          linarith
        have h5 : |x| = |z| * 2 ^ (971 : ℤ) := by
          rw [← hxz, abs_mul, abs_of_pos hp, h3]
        have h6 : ((2 : ℝ) ^ 53 - 1 / 2) * 2 ^ (971 : ℤ) = 2 ^ 1024 - 2 ^ 970 := by
          have e1 : (2 : ℝ) ^ (971 : ℤ) = 2 ^ 970 * 2 := by
            rw [show (971 : ℤ) = ((971 : ℕ) : ℤ) from rfl, zpow_natCast, pow_succ]
          have e2 : (2 : ℝ) ^ 1024 = 2 ^ 53 * (2 ^ 970 * 2) := by rw [← pow_succ, ← pow_add]
          rw [e1, e2]
          generalize (2 : ℝ) ^ 970 = w
          ring
        have h7 : (0 : ℝ) < 2 ^ (971 : ℤ) := by positivity
        have h8 := mul_le_mul_of_nonneg_right h4 h7.le
        rw [h6, ← h5] at h8
        exact absurd hx (not_lt.2 h8)
      have h4 : (2 : ℝ) ^ (E + 1) = 2 ^ E * 2 := by rw [zpow_add₀ two_ne_zero, zpow_one]
      rcases (abs_eq (by norm_num)).1 h2 with h5 | h5
      · refine ⟨2 ^ 52, E + 1, by norm_num, by omega, by omega, ?_⟩
        rw [h5, h4]
        push_cast
        ring
      · refine ⟨-2 ^ 52, E + 1, by norm_num, by omega, by omega, ?_⟩
        rw [h5, h4]
        push_cast
        ring
  · have key : ∀ k : ℤ, |x - round z * 2 ^ E| ≤ |x - k * 2 ^ E| := fun k => by
      have h := mul_le_mul_of_nonneg_right (round_le z k) hp.le
      have e : ∀ w : ℝ, |w| * 2 ^ E = |w * 2 ^ E| := fun w => by rw [abs_mul, abs_of_pos hp]
      rw [e, e, sub_mul, sub_mul, hxz] at h
      exact h
    rintro y ⟨m, e, hm, he, -, rfl⟩
    rcases eq_or_ne x 0 with hx0 | hx0
    · have h1 := key 0
      rw [Int.cast_zero, zero_mul, sub_zero, hx0, abs_zero] at h1
      rw [hx0]
      exact h1.trans (abs_nonneg _)
    rcases le_or_gt E e with h | h
    · obtain ⟨d, hd⟩ := Int.eq_ofNat_of_zero_le (sub_nonneg.2 h)
      have := key (m * 2 ^ d)
      push_cast at this
      rwa [mul_assoc, ← zpow_natCast (2 : ℝ) d, ← zpow_add₀ two_ne_zero, show (d : ℤ) + E = e by omega] at this
    · have hl : E = Int.log 2 |x| - 52 := by
        rcases max_choice (Int.log 2 |x| - 52) (-1074) with h1 | h1
        · exact hEd.trans h1
        · have : E = -1074 := hEd.trans h1
          omega
      have h1 : (2 : ℝ) ^ (E + 52) ≤ |x| := by
        have := Int.zpow_log_le_self (b := 2) (by norm_num) (abs_pos.2 hx0)
        rw [hl, sub_add_cancel]
        simpa using this
      have h2 : |(m : ℝ) * 2 ^ e| ≤ 2 ^ (E + 52) := by
        rw [abs_mul, abs_of_pos (by positivity : (0 : ℝ) < 2 ^ e)]
        have h3 : |(m : ℝ)| ≤ 2 ^ (53 : ℤ) := by exact_mod_cast hm.le
        refine (mul_le_mul_of_nonneg_right h3 (by positivity)).trans ?_
        rw [← zpow_add₀ two_ne_zero]
        exact zpow_le_zpow_right₀ one_le_two (by omega)
      have h3 : (2 : ℝ) ^ (E + 52) = 2 ^ 52 * 2 ^ E := by
        rw [zpow_add₀ two_ne_zero, mul_comm]
        norm_num
      rw [abs_le] at h2
      rcases le_total 0 x with h0 | h0
      · have := key (2 ^ 52)
        rw [Int.cast_pow, Int.cast_ofNat, ← h3] at this
        rw [abs_of_nonneg h0] at h1
        rw [abs_of_nonneg (sub_nonneg.2 h1)] at this
        rw [abs_of_nonneg (by linarith : 0 ≤ x - m * 2 ^ e)]
        linarith
      · have := key (-2 ^ 52)
        rw [Int.cast_neg, Int.cast_pow, Int.cast_ofNat, neg_mul, ← h3] at this
        rw [abs_of_nonpos h0] at h1
        rw [abs_of_nonpos (by linarith : x - -2 ^ (E + 52) ≤ 0)] at this
        rw [abs_of_nonpos (by linarith : x - m * 2 ^ e ≤ 0)]
        linarith

/-- One third is not a number of the type `double`; it is rounded. -/
example : IsDouble (nearest (1 / 3)) ∧ ¬IsDouble (1 / 3) := by
  refine ⟨(C76_double ?_).1, ?_⟩
  · rw [abs_of_pos (by norm_num)]
    have h1 : (2 : ℝ) ^ 1024 = 2 ^ 54 * 2 ^ 970 := by rw [← pow_add]
    have h2 : (1 : ℝ) ≤ 2 ^ 970 := one_le_pow₀ one_le_two
    rw [h1]
    generalize (2 : ℝ) ^ 970 = w at h2
    norm_num
    linarith
  · rintro ⟨m, e, -, he, -, h⟩
    obtain ⟨d, hd⟩ : ∃ d : ℕ, e = d - 1074 := ⟨(e + 1074).toNat, by omega⟩
    have h1 : (2 : ℝ) ^ 1074 = 3 * m * 2 ^ d := by
      have h2 : (2 : ℝ) ^ e * 2 ^ 1074 = 2 ^ d := by
        rw [← zpow_natCast (2 : ℝ) 1074, ← zpow_add₀ two_ne_zero, hd, ← zpow_natCast]
        congr 1
        exact sub_add_cancel _ _
      rw [← h2, mul_assoc, ← mul_assoc (m : ℝ), ← h]
      generalize (2 : ℝ) ^ 1074 = w
      ring
    have h3 : (2 : ℤ) ^ 1074 = 3 * m * 2 ^ d := by
      have : (((2 : ℤ) ^ 1074 : ℤ) : ℝ) = ((3 * m * 2 ^ d : ℤ) : ℝ) := by
        rw [Int.cast_pow, Int.cast_mul, Int.cast_mul, Int.cast_pow]
        exact h1
      exact Int.cast_injective this
    have h4 : (3 : ℤ) ∣ 2 ^ 1074 := ⟨m * 2 ^ d, by rw [h3, mul_assoc]⟩
    have h5 : ∀ k : ℕ, ¬(3 : ℤ) ∣ 2 ^ k := fun k => by
      induction k with
      | zero => norm_num
      | succ k ih =>
        rw [pow_succ]
        omega
    exact h5 _ h4

end

end Thunder
