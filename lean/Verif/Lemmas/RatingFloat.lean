import Verif.Spec.RatingFloat
import Verif.Lemmas.Mag
import Verif.Lemmas.Stat
import Mathlib.Analysis.SpecialFunctions.Log.Deriv
import Mathlib.Analysis.Complex.ExponentialBounds
/-
Rounding keeps the order; how far powers of ten are apart.
-/
namespace Bglib.Img

theorem lt_exponent {x : ℚ} (hx : 0 < x) : x < pow2 (exponent x + 1) := by
  unfold exponent
  dsimp only
  split
  · next h => rwa [sub_add_cancel]
  · next h =>
    rw [pow2_eq]
    have hp : 0 < x.num := Rat.num_pos.2 hx
    obtain ⟨p, hp'⟩ := Int.eq_ofNat_of_zero_le hp.le
    have hp0 : p ≠ 0 := by rintro rfl; omega
    rw [hp', Int.toNat_natCast]
    have h1 : p < 2 ^ (p.log2 + 1) := Nat.lt_log2_self
    have h2 : 2 ^ x.den.log2 ≤ x.den := Nat.log2_self_le x.den_nz
    have hx' : x = (p : ℚ) / x.den := by
      conv_lhs => rw [← Rat.num_div_den x]
      rw [hp']; simp
    rw [show ((p.log2 : Int) - (x.den.log2 : Int) + 1) = ((p.log2 + 1 : Nat) : Int) - (x.den.log2 : Int) by push_cast; ring]
    rw [zpow_sub₀ (by norm_num), zpow_natCast, zpow_natCast]
    conv_lhs => rw [hx']
    have h1' : (p : ℚ) < 2 ^ (p.log2 + 1) := by exact_mod_cast h1
    have h2' : (2 : ℚ) ^ x.den.log2 ≤ x.den := by exact_mod_cast h2
    exact div_lt_div₀ h1' h2' (by positivity) (by positivity)

theorem nearest_int (n : Int) : nearestInt (n : ℚ) = n := by
  unfold nearestInt
  dsimp only
  rw [Rat.floor_intCast, if_pos]
  norm_num

theorem nearest_mono {a b : ℚ} (h : a ≤ b) : nearestInt a ≤ nearestInt b := by
  by_contra hc
  have hc' : (nearestInt b : ℚ) + 1 ≤ nearestInt a := by exact_mod_cast (not_le.1 hc)
  have h1 := (abs_le.1 (nearest_err a)).2
  have h2 := (abs_le.1 (nearest_err b)).1
  have : a = b := by linarith
  subst this
  exact hc (le_refl _)

theorem flPos_mono {x y : ℚ} (hx : 0 < x) (h : x ≤ y) : flPos x ≤ flPos y := by
  have hy : 0 < y := lt_of_lt_of_le hx h
  have le1 := exponent_le hx
  have lt1 := lt_exponent hx
  have le2 := exponent_le hy
  have lt2 := lt_exponent hy
  have hee : exponent x < exponent y + 1 := by
    have : pow2 (exponent x) < pow2 (exponent y + 1) := by linarith
    rw [pow2_eq, pow2_eq] at this
    exact (zpow_lt_zpow_iff_right₀ (by norm_num)).1 this
  rcases lt_or_eq_of_le (Int.lt_add_one_iff.1 hee) with hlt | heq
  · -- a power of two lies between
    have up : flPos x ≤ pow2 (exponent x + 1) := by
      unfold flPos
      have hu := pow2_pos (exponent x - 52)
      have e : pow2 (exponent x + 1) = ((2 ^ 53 : Int) : ℚ) * pow2 (exponent x - 52) := by
        have := zpow_add₀ (show (2 : ℚ) ≠ 0 by norm_num) 53 (exponent x - 52)
        rw [pow2_eq, pow2_eq, show exponent x + 1 = 53 + (exponent x - 52) by ring, this]
        congr 1
      rw [e]
      refine mul_le_mul_of_nonneg_right ?_ hu.le
      have : nearestInt (x / pow2 (exponent x - 52)) ≤ nearestInt ((2 ^ 53 : Int) : ℚ) := by
        apply nearest_mono
        rw [div_le_iff₀ hu, ← e]
        exact lt1.le
      rw [nearest_int] at this
      exact_mod_cast this
    have down : pow2 (exponent y) ≤ flPos y := by
      unfold flPos
      have hu := pow2_pos (exponent y - 52)
      have e : pow2 (exponent y) = ((2 ^ 52 : Int) : ℚ) * pow2 (exponent y - 52) := by
        have := zpow_add₀ (show (2 : ℚ) ≠ 0 by norm_num) 52 (exponent y - 52)
        rw [pow2_eq, pow2_eq]
        conv_lhs => rw [show exponent y = 52 + (exponent y - 52) by ring, this]
        congr 1
      rw [e]
      refine mul_le_mul_of_nonneg_right ?_ hu.le
      have : nearestInt ((2 ^ 52 : Int) : ℚ) ≤ nearestInt (y / pow2 (exponent y - 52)) := by
        apply nearest_mono
        rw [le_div_iff₀ hu, ← e]
        exact le2
      rw [nearest_int] at this
      exact_mod_cast this
    have mid : pow2 (exponent x + 1) ≤ pow2 (exponent y) := by
      rw [pow2_eq, pow2_eq]
      exact zpow_le_zpow_right₀ (by norm_num) (by omega)
    linarith
  · unfold flPos
    rw [heq]
    have hu := pow2_pos (exponent y - 52)
    refine mul_le_mul_of_nonneg_right ?_ hu.le
    exact_mod_cast nearest_mono (div_le_div_of_nonneg_right h hu.le)

/-- Rounding keeps the order. -/
theorem fl_mono {x y : ℚ} (hx : 0 ≤ x) (h : x ≤ y) : fl x ≤ fl y := by
  rcases hx.eq_or_lt with rfl | hx
  · rw [fl_zero]
    rcases h.eq_or_lt with rfl | h
    · rw [fl_zero]
    · exact (fl_gt h).le
  · rw [fl_pos hx, fl_pos (lt_of_lt_of_le hx h)]
    exact flPos_mono hx h

theorem fl_nonneg {x : ℚ} (hx : 0 ≤ x) : 0 ≤ fl x := by
  have := fl_mono (le_refl 0) hx
  rwa [fl_zero] at this

theorem fl_err' {x : ℚ} (hx : 0 ≤ x) : |fl x - x| ≤ x / 2 ^ 53 := by
  rcases hx.eq_or_lt with rfl | hx
  · simp [fl_zero]
  · exact fl_err hx

theorem fl_half : fl (1 / 2) = 1 / 2 := by
  have := fl_exact (n := 1) 1 (by norm_num) (by norm_num)
  simpa using this

theorem fl_one : fl 1 = 1 := by
  have := fl_int (n := 1) (by norm_num) (by norm_num)
  simpa using this

theorem fl_two : fl 2 = 2 := by
  have := fl_int (n := 2) (by norm_num) (by norm_num)
  simpa using this

end Bglib.Img

namespace Bglib
open Real

theorem log_ten_le : Real.log 10 ≤ 3 := by
  have h1 : Real.log 10 ≤ Real.log 16 := Real.log_le_log (by norm_num) (by norm_num)
  have h2 : Real.log 16 = 4 * Real.log 2 := by
    rw [show (16 : ℝ) = 2 ^ 4 by norm_num, Real.log_pow]; norm_num
  have := Real.log_two_lt_d9
  linarith

theorem two_le_log_ten : 2 ≤ Real.log 10 := by
  have h1 : Real.log 8 ≤ Real.log 10 := Real.log_le_log (by norm_num) (by norm_num)
  have h2 : Real.log 8 = 3 * Real.log 2 := by
    rw [show (8 : ℝ) = 2 ^ 3 by norm_num, Real.log_pow]; norm_num
  have := Real.log_two_gt_d9
  linarith

theorem one_le_pow10 {x : ℝ} (hx : 0 ≤ x) : 1 ≤ (10 : ℝ) ^ x := Real.one_le_rpow (by norm_num) hx

/-- The larger of two powers of ten exceeds the other at most in proportion. -/
theorem pow10_gap {a b : ℝ} (h : a ≤ b) : (10 : ℝ) ^ b - (10 : ℝ) ^ a ≤ 3 * (b - a) * (10 : ℝ) ^ b := by
  have e : (10 : ℝ) ^ a = (10 : ℝ) ^ b * Real.exp (Real.log 10 * (a - b)) := by
    rw [← Real.rpow_def_of_pos (by norm_num), ← Real.rpow_add (by norm_num)]; congr 1; ring
  have h1 := Real.add_one_le_exp (Real.log 10 * (a - b))
  have h2 : 3 * (a - b) ≤ Real.log 10 * (a - b) := by nlinarith [log_ten_le]
  have h3 := pow10_pos b
  rw [e]
  nlinarith

theorem pow10_big {x : ℝ} : 1 + 2 * x ≤ (10 : ℝ) ^ x ∨ x < 0 := by
  rcases lt_or_ge x 0 with h | h
  · exact .inr h
  · left
    rw [Real.rpow_def_of_pos (by norm_num)]
    have h1 := Real.add_one_le_exp (Real.log 10 * x)
    have h2 : 2 * x ≤ Real.log 10 * x := by nlinarith [two_le_log_ten]
    linarith

/-- How far the formula moves if the exponent is off by a small part of itself. -/
theorem logistic_near {x y ε : ℝ} (hy : 0 ≤ y) (h0 : 0 ≤ ε) (h1 : ε ≤ 1 / 2) (h : |x - y| ≤ ε * y) :
    |1 / ((10 : ℝ) ^ x + 1) - 1 / ((10 : ℝ) ^ y + 1)| ≤ 3 * ε := by
  obtain ⟨hl, hr⟩ := abs_le.1 h
  have key : ∀ a b : ℝ, a ≤ b → b - a ≤ ε * y → y / 2 ≤ a →
      |1 / ((10 : ℝ) ^ a + 1) - 1 / ((10 : ℝ) ^ b + 1)| ≤ 3 * ε := by
    intro a b hab hd ha
    have pa := pow10_pos a
    have pb := pow10_pos b
    have gap := pow10_gap hab
    have hle : (10 : ℝ) ^ a ≤ (10 : ℝ) ^ b := Real.rpow_le_rpow_of_exponent_le (by norm_num) hab
    rw [div_sub_div _ _ (by linarith) (by linarith)]
    rw [abs_of_nonneg (by apply div_nonneg; · linarith
                          · positivity)]
    rw [div_le_iff₀ (by positivity)]
    have big : 1 + y ≤ (10 : ℝ) ^ a := by
      rcases pow10_big (x := a) with h | h
      · linarith
      · linarith
    have e1 : 1 * ((10 : ℝ) ^ b + 1) - ((10 : ℝ) ^ a + 1) * 1 = (10 : ℝ) ^ b - (10 : ℝ) ^ a := by ring
    rw [e1]
    have e2 : 3 * (b - a) * (10 : ℝ) ^ b ≤ 3 * (ε * y) * (10 : ℝ) ^ b := by
      apply mul_le_mul_of_nonneg_right _ pb.le
      linarith
    have e3 : 3 * (ε * y) * (10 : ℝ) ^ b ≤ 3 * ε * (((10 : ℝ) ^ a + 1) * ((10 : ℝ) ^ b + 1)) := by
      have : y * (10 : ℝ) ^ b ≤ ((10 : ℝ) ^ a + 1) * ((10 : ℝ) ^ b + 1) := by
        apply mul_le_mul <;> linarith
      calc _ = 3 * ε * (y * (10 : ℝ) ^ b) := by ring
        _ ≤ _ := by apply mul_le_mul_of_nonneg_left this; linarith
    linarith
  have hεy : ε * y ≤ y / 2 := by nlinarith
  rcases le_total x y with hxy | hxy
  · exact key x y hxy (by linarith) (by linarith)
  · rw [abs_sub_comm]
    exact key y x hxy (by linarith) (by linarith)

end Bglib
