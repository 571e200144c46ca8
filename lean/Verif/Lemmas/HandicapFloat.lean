import Verif.Lemmas.RatingFloat
import Verif.Spec.HandicapFloat
/-
Lemmas for C116: rounding and powers of two.
-/
namespace Bglib.Img
open Bglib

theorem exponent_unique {x : ℚ} (hx : 0 < x) {e : Int} (h1 : (2 : ℚ) ^ e ≤ x) (h2 : x < 2 ^ (e + 1)) : exponent x = e := by
  have a1 := exponent_le hx
  have a2 := lt_exponent hx
  rw [pow2_eq] at a1 a2
  have b1 : exponent x < e + 1 := (zpow_lt_zpow_iff_right₀ (by norm_num : (1 : ℚ) < 2)).1 (lt_of_le_of_lt a1 h2)
  have b2 : e < exponent x + 1 := (zpow_lt_zpow_iff_right₀ (by norm_num : (1 : ℚ) < 2)).1 (lt_of_le_of_lt h1 a2)
  omega

theorem exponent_scale {x : ℚ} (hx : 0 < x) (k : Int) : exponent (x * 2 ^ k) = exponent x + k := by
  have a1 := exponent_le hx
  have a2 := lt_exponent hx
  rw [pow2_eq] at a1 a2
  have hk : (0 : ℚ) < 2 ^ k := by positivity
  apply exponent_unique (by positivity)
  · rw [zpow_add₀ (by norm_num)]
    exact mul_le_mul_of_nonneg_right a1 hk.le
  · rw [show exponent x + k + 1 = exponent x + 1 + k by ring, zpow_add₀ (by norm_num)]
    exact mul_lt_mul_of_pos_right a2 hk

theorem flPos_scale {x : ℚ} (hx : 0 < x) (k : Int) : flPos (x * 2 ^ k) = flPos x * 2 ^ k := by
  unfold flPos
  rw [exponent_scale hx, pow2_eq, pow2_eq, show exponent x + k - 52 = exponent x - 52 + k by ring,
    zpow_add₀ (by norm_num)]
  have hk : (2 : ℚ) ^ k ≠ 0 := by positivity
  rw [mul_div_mul_right _ _ hk]
  ring

/-- Multiplying by a power of two commutes with rounding. -/
theorem fl_scale (x : ℚ) (k : Int) : fl (x * 2 ^ k) = fl x * 2 ^ k := by
  rcases lt_trichotomy x 0 with h | rfl | h
  · have : x = -(-x) := by ring
    rw [this, neg_mul, fl_neg, fl_neg, fl_pos (by have : (0 : ℚ) < 2 ^ k := by positivity
                                                  nlinarith), fl_pos (by linarith), flPos_scale (by linarith)]
    ring
  · rw [zero_mul, fl_zero, zero_mul]
  · rw [fl_pos (by positivity), fl_pos h, flPos_scale h]

end Bglib.Img
