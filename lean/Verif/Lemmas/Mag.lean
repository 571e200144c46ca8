import Mathlib.Algebra.Order.Field.Rat
import Mathlib.Data.Rat.Floor
import Mathlib.Tactic.FieldSimp
import Mathlib.Tactic.Linarith
import Mathlib.Tactic.Positivity
import Mathlib.Tactic.Ring
import Mathlib.Tactic.NormNum
import Verif.Model.Mag
/-
How far rounding can go.
-/
namespace Bglib.Img

theorem pow2_eq (t : Int) : pow2 t = (2 : ℚ) ^ t := by
  unfold pow2
  split
  · next h =>
    obtain ⟨n, rfl⟩ := Int.eq_ofNat_of_zero_le h
    simp
  · next h =>
    obtain ⟨n, hn⟩ := Int.eq_ofNat_of_zero_le (show 0 ≤ -t by omega)
    have : t = -(n : Int) := by omega
    subst this
    simp [zpow_neg]

theorem pow2_pos (t : Int) : 0 < pow2 t := by
  rw [pow2_eq]; exact zpow_pos (by norm_num) _

theorem exponent_le {x : ℚ} (hx : 0 < x) : pow2 (exponent x) ≤ x := by
  unfold exponent
  dsimp only
  split
  · next h =>
    rw [pow2_eq]
    have hp : 0 < x.num := Rat.num_pos.2 hx
    obtain ⟨p, hp'⟩ := Int.eq_ofNat_of_zero_le hp.le
    have hp0 : p ≠ 0 := by rintro rfl; omega
    rw [hp', Int.toNat_natCast]
    have h1 : 2 ^ p.log2 ≤ p := Nat.log2_self_le hp0
    have h2 : x.den < 2 ^ (x.den.log2 + 1) := Nat.lt_log2_self
    have hd : (0 : ℚ) < x.den := by exact_mod_cast x.den_pos
    have hx' : x = (p : ℚ) / x.den := by
      conv_lhs => rw [← Rat.num_div_den x]
      rw [hp']; simp
    rw [show ((p.log2 : Int) - (x.den.log2 : Int) - 1) = (p.log2 : Int) - ((x.den.log2 + 1 : Nat) : Int) by push_cast; ring]
    rw [zpow_sub₀ (by norm_num), zpow_natCast, zpow_natCast]
    conv_rhs => rw [hx']
    have h1' : (2 : ℚ) ^ p.log2 ≤ p := by exact_mod_cast h1
    have h2' : (x.den : ℚ) ≤ 2 ^ (x.den.log2 + 1) := by exact_mod_cast h2.le
    exact div_le_div₀ (by positivity) h1' hd h2'
  · next h => exact not_lt.1 h

theorem nearest_err (y : ℚ) : |(nearestInt y : ℚ) - y| ≤ 1 / 2 := by
  unfold nearestInt
  dsimp only
  have h1 : (y.floor : ℚ) ≤ y := Rat.floor_le y
  have h2 : y < y.floor + 1 := by
    have := Rat.lt_floor_add_one y
    push_cast at this
    exact this
  rw [abs_le]
  split
  · next h => constructor <;> linarith
  · next h =>
    split
    · next h' => push_cast; constructor <;> linarith
    · next h' =>
      have : y - y.floor = 1 / 2 := le_antisymm (not_lt.1 h') (not_lt.1 h)
      split
      · constructor <;> linarith
      · push_cast; constructor <;> linarith

theorem flPos_err {x : ℚ} (hx : 0 < x) : |flPos x - x| ≤ x / 2 ^ 53 := by
  unfold flPos
  set u := pow2 (exponent x - 52) with hu
  have hu0 : 0 < u := pow2_pos _
  have hux : u * 2 ^ 52 ≤ x := by
    have := exponent_le hx
    rw [hu, pow2_eq, zpow_sub₀ (by norm_num)]
    rw [pow2_eq] at this
    have e : (2 : ℚ) ^ (52 : ℤ) = 2 ^ 52 := by norm_cast
    rw [e, div_mul_cancel₀ _ (by positivity)]
    exact this
  have h := nearest_err (x / u)
  have : (nearestInt (x / u) : ℚ) * u - x = ((nearestInt (x / u) : ℚ) - x / u) * u := by
    field_simp
  rw [this, abs_mul, abs_of_pos hu0]
  calc _ ≤ 1 / 2 * u := by apply mul_le_mul_of_nonneg_right h hu0.le
    _ ≤ x / 2 ^ 53 := by
      rw [le_div_iff₀ (by positivity)]
      linarith

theorem fl_pos {x : ℚ} (hx : 0 < x) : fl x = flPos x := by
  unfold fl
  rw [if_neg hx.ne', if_neg hx.le.not_gt]

theorem fl_err {x : ℚ} (hx : 0 < x) : |fl x - x| ≤ x / 2 ^ 53 := by
  rw [fl_pos hx]; exact flPos_err hx

theorem fl_gt {x : ℚ} (hx : 0 < x) : 0 < fl x := by
  have := (abs_le.1 (fl_err hx)).1
  have h : x / 2 ^ 53 ≤ x / 2 := by
    apply div_le_div_of_nonneg_left hx.le (by norm_num) (by norm_num)
  linarith

theorem fl_neg (x : ℚ) : fl (-x) = - fl x := by
  unfold fl
  rcases lt_trichotomy x 0 with h | h | h
  · rw [if_neg (by linarith), if_neg (by linarith), if_neg h.ne, if_pos h, neg_neg]
  · subst h; simp
  · rw [if_neg (by linarith), if_pos (by linarith), if_neg h.ne', if_neg (by linarith), neg_neg]

theorem truncate_neg {y : ℚ} (h : 0 ≤ y) : truncate (-y) = - truncate y := by
  unfold truncate
  rcases h.eq_or_lt with h | h
  · subst h; decide +kernel
  · rw [if_pos (by linarith), if_neg (by linarith), neg_neg]

theorem fl_zero : fl 0 = 0 := by unfold fl; rw [if_pos rfl]

theorem applyMag_zero (m : ℚ) : applyMag m 0 = 0 := by
  unfold applyMag
  rw [Int.cast_zero, zero_mul, fl_zero]
  decide +kernel

theorem applyMag_neg {m : ℚ} (hm : 0 < m) {x : Int} (hx : 0 ≤ x) : applyMag m (-x) = - applyMag m x := by
  unfold applyMag
  rw [Int.cast_neg, neg_mul, fl_neg]
  apply truncate_neg
  rcases hx.eq_or_lt with h | h
  · subst h; rw [Int.cast_zero, zero_mul, fl_zero]
  · exact (fl_gt (mul_pos (by exact_mod_cast h) hm)).le

/-- Twice rounded. -/
theorem fl_twice {b W x : ℚ} (hb : 0 < b) (hW : 0 < W) (hx : 0 < x) :
    |fl (x * fl (b / W)) - x * b / W| ≤ x * b / W * (3 / 2 ^ 53) := by
  have h1 := abs_le.1 (fl_err (div_pos hb hW))
  have hm := fl_gt (div_pos hb hW)
  set m := fl (b / W) with hmd
  have h2 := abs_le.1 (fl_err (mul_pos hx hm))
  set r := b / W with hr
  have hr0 : 0 < r := div_pos hb hW
  have e : x * b / W = x * r := by rw [hr, mul_div_assoc]
  rw [e, abs_le]
  have hxr : 0 < x * r := mul_pos hx hr0
  have k1 : x * m ≤ x * r + x * r / 2 ^ 53 := by
    have := mul_le_mul_of_nonneg_left (show m ≤ r + r / 2 ^ 53 by linarith [h1.2]) hx.le
    calc _ ≤ _ := this
      _ = _ := by ring
  have k2 : x * r - x * r / 2 ^ 53 ≤ x * m := by
    have := mul_le_mul_of_nonneg_left (show r - r / 2 ^ 53 ≤ m by linarith [h1.1]) hx.le
    calc _ = _ := by ring
      _ ≤ _ := this
  constructor
  · linarith [h2.1]
  · linarith [h2.2]

/-- What `apply_mag` gives: the scaled coordinate rounded down, but where it is a whole number possibly one less. -/
theorem applyMag_near {b W x : Int} (hb : 0 < b) (hW : 0 < W) (hx : 0 < x) (hbig : x * b * 3 < 2 ^ 53) :
    applyMag (fl (b / W)) x = x * b / W ∨ (W ∣ x * b ∧ applyMag (fl (b / W)) x = x * b / W - 1) := by
  have hb' : (0 : ℚ) < b := by exact_mod_cast hb
  have hW' : (0 : ℚ) < W := by exact_mod_cast hW
  have hx' : (0 : ℚ) < x := by exact_mod_cast hx
  have h := abs_le.1 (fl_twice hb' hW' hx')
  have hpos := fl_gt (mul_pos hx' (fl_gt (div_pos hb' hW')))
  unfold applyMag truncate
  rw [if_neg (by linarith)]
  set y := fl ((x : ℚ) * fl (b / W)) with hy
  -- the error is smaller than 1 / W
  have herr : (x : ℚ) * b / W * (3 / 2 ^ 53) < (1 : ℚ) / W := by
    have : (x : ℚ) * b * 3 < 2 ^ 53 := by exact_mod_cast hbig
    rw [show (x : ℚ) * b / W * (3 / 2 ^ 53) = x * b * 3 / 2 ^ 53 / W by ring]
    apply div_lt_div_of_pos_right _ hW'
    rw [div_lt_one (by positivity)]
    exact this
  obtain ⟨q, r, hq, hr0, hrW⟩ : ∃ q r : Int, x * b = W * q + r ∧ 0 ≤ r ∧ r < W :=
    ⟨x * b / W, x * b % W, (Int.mul_ediv_add_emod _ _).symm, Int.emod_nonneg _ hW.ne', Int.emod_lt_of_pos _ hW⟩
  have hdiv : x * b / W = q := by
    rw [hq, Int.add_comm, Int.add_mul_ediv_left _ _ hW.ne', Int.ediv_eq_zero_of_lt hr0 hrW, Int.zero_add]
  have hval : (x : ℚ) * b / W = q + r / W := by
    have : (x : ℚ) * b = W * q + r := by exact_mod_cast hq
    rw [this]; field_simp
  rw [hdiv]
  have hup : y < q + 1 := by
    have : (r : ℚ) / W + 1 / W ≤ 1 := by
      rw [← add_div, div_le_one hW']
      have : r + 1 ≤ W := by omega
      exact_mod_cast this
    rw [hval] at h herr
    linarith [h.2]
  by_cases hr : r = 0
  · have hlow : (q : ℚ) - 1 ≤ y := by
      rw [hval, hr] at h herr
      have : (1 : ℚ) / W ≤ 1 := by
        rw [div_le_one hW']; exact_mod_cast hW
      simp only [Int.cast_zero, zero_div, add_zero] at h herr
      linarith [h.1]
    have h1 : y.floor < q + 1 := Rat.floor_lt_iff.2 (by push_cast; exact hup)
    have h2 : q - 1 ≤ y.floor := Rat.le_floor_iff.2 (by push_cast; exact hlow)
    have : y.floor = q ∨ y.floor = q - 1 := by omega
    rcases this with h | h
    · exact .inl h
    · exact .inr ⟨⟨q, by rw [hq, hr, Int.add_zero]⟩, h⟩
  · have hlow : (q : ℚ) ≤ y := by
      have : (1 : ℚ) / W ≤ r / W := by
        apply div_le_div_of_nonneg_right _ hW'.le
        have : 1 ≤ r := by omega
        exact_mod_cast this
      rw [hval] at h herr
      linarith [h.1]
    left
    have h1 : y.floor < q + 1 := Rat.floor_lt_iff.2 (by push_cast; exact hup)
    have h2 : q ≤ y.floor := Rat.le_floor_iff.2 hlow
    omega

/-- The bounds of a scaled coordinate. -/
theorem applyMag_le {b W x : Int} (hb : 0 < b) (hW : 0 < W) (hx : 0 ≤ x) (hbig : x * b * 3 < 2 ^ 53) :
    0 ≤ applyMag (fl (b / W)) x ∧ W * applyMag (fl (b / W)) x ≤ x * b ∧ x * b ≤ W * (applyMag (fl (b / W)) x + 1) := by
  rcases hx.eq_or_lt with h | h
  · subst h; rw [applyMag_zero]; simp; omega
  have hpos : 0 ≤ applyMag (fl (b / W)) x := by
    unfold applyMag truncate
    have := fl_gt (mul_pos (show (0 : ℚ) < x by exact_mod_cast h)
      (fl_gt (div_pos (show (0 : ℚ) < b by exact_mod_cast hb) (show (0 : ℚ) < W by exact_mod_cast hW))))
    rw [if_neg (by linarith)]
    exact Rat.le_floor_iff.2 (by push_cast; exact this.le)
  refine ⟨hpos, ?_⟩
  rcases applyMag_near hb hW h hbig with e | ⟨hd, e⟩
  · rw [e]
    have h1 := Int.mul_ediv_add_emod (x * b) W
    have h2 := Int.emod_nonneg (x * b) hW.ne'
    have h3 := Int.emod_lt_of_pos (x * b) hW
    rw [Int.mul_add]
    omega
  · rw [e]
    have h1 := Int.mul_ediv_cancel' hd
    rw [Int.mul_sub]
    refine ⟨by omega, ?_⟩
    rw [Int.mul_add, Int.mul_sub]
    omega

/-- A number with few binary digits is not rounded. -/
theorem fl_exact {n : Int} (j : Nat) (h0 : 0 < n) (h : n < 2 ^ 53) : fl (n / 2 ^ j) = n / 2 ^ j := by
  have hn : (0 : ℚ) < n := by exact_mod_cast h0
  set x : ℚ := n / 2 ^ j with hx
  have h0' : 0 < x := by rw [hx]; positivity
  rw [fl_pos h0']
  unfold flPos
  have he : exponent x ≤ 52 - j := by
    by_contra hc
    have hle := exponent_le h0'
    rw [pow2_eq] at hle
    have : (2 : ℚ) ^ (53 - (j : ℤ)) ≤ 2 ^ exponent x := zpow_le_zpow_right₀ (by norm_num) (by omega)
    have e : (2 : ℚ) ^ (53 - (j : ℤ)) = 2 ^ 53 / 2 ^ j := by
      rw [zpow_sub₀ (by norm_num), zpow_natCast]; norm_cast
    have h' : (n : ℚ) < 2 ^ 53 := by exact_mod_cast h
    have : x < 2 ^ 53 / 2 ^ j := div_lt_div_of_pos_right h' (by positivity)
    linarith
  obtain ⟨k, hk⟩ := Int.eq_ofNat_of_zero_le (show 0 ≤ 52 - j - exponent x by omega)
  have hu : pow2 (exponent x - 52) = 1 / 2 ^ (j + k) := by
    rw [pow2_eq, show exponent x - 52 = -((j + k : Nat) : ℤ) by push_cast; omega, zpow_neg, zpow_natCast, one_div]
  rw [hu, div_div_eq_mul_div, div_one]
  have e : x * 2 ^ (j + k) = ((n * 2 ^ k : ℤ) : ℚ) := by
    rw [hx, pow_add]; push_cast; field_simp
  have hi : nearestInt (x * 2 ^ (j + k)) = n * 2 ^ k := by
    rw [e]
    unfold nearestInt
    dsimp only
    rw [Rat.floor_intCast, if_pos]
    norm_num
  rw [hi, hx, pow_add]
  push_cast
  field_simp

/-- A whole number is not rounded. -/
theorem fl_int {n : Int} (h0 : 0 < n) (h : n < 2 ^ 53) : fl n = n := by
  have := fl_exact 0 h0 h
  rwa [pow_zero, div_one] at this

/-- Which magnification is the smaller. -/
theorem fl_lt {a b c d : Int} (ha : 0 < a) (hb : 0 < b) (hc : 0 < c) (hd : 0 < d) (hbig : a * d * 4 < 2 ^ 53)
    (h : a * d < c * b) : fl (a / b) < fl (c / d) := by
  have ha' : (0 : ℚ) < a := by exact_mod_cast ha
  have hb' : (0 : ℚ) < b := by exact_mod_cast hb
  have hc' : (0 : ℚ) < c := by exact_mod_cast hc
  have hd' : (0 : ℚ) < d := by exact_mod_cast hd
  have h1 := (abs_le.1 (fl_err (div_pos ha' hb'))).2
  have h2 := (abs_le.1 (fl_err (div_pos hc' hd'))).1
  have h' : (a : ℚ) * d + 1 ≤ c * b := by exact_mod_cast h
  have hbig' : (a : ℚ) * d * 4 < 2 ^ 53 := by exact_mod_cast hbig
  have hl : fl ((a : ℚ) / b) ≤ (a / b) * (1 + 1 / 2 ^ 53) := by linarith
  have hr : (c / d : ℚ) * (1 - 1 / 2 ^ 53) ≤ fl (c / d) := by linarith
  refine lt_of_le_of_lt hl (lt_of_lt_of_le ?_ hr)
  rw [div_mul_eq_mul_div, div_mul_eq_mul_div, div_lt_div_iff₀ hb' hd']
  have k : ((a : ℚ) * d + 1) * (1 - 1 / 2 ^ 53) ≤ c * b * (1 - 1 / 2 ^ 53) :=
    mul_le_mul_of_nonneg_right h' (by norm_num)
  have e1 : (a : ℚ) * (1 + 1 / 2 ^ 53) * d = a * d * (1 + 1 / 2 ^ 53) := by ring
  have e2 : (c : ℚ) * (1 - 1 / 2 ^ 53) * b = c * b * (1 - 1 / 2 ^ 53) := by ring
  rw [e1, e2]
  refine lt_of_lt_of_le ?_ k
  rw [← sub_pos]
  have e3 : ((a : ℚ) * d + 1) * (1 - 1 / 2 ^ 53) - a * d * (1 + 1 / 2 ^ 53) = 1 - 1 / 2 ^ 53 - 2 * (a * d) / 2 ^ 53 := by
    ring
  rw [e3]
  have : 2 * ((a : ℚ) * d) / 2 ^ 53 < 1 / 2 := by
    rw [div_lt_iff₀ (by positivity)]
    linarith
  have : (1 : ℚ) / 2 ^ 53 < 1 / 2 := by norm_num
  linarith

/-- The other side has room. -/
theorem fl_room {a b c d : Int} (ha : 0 < a) (hb : 0 < b) (hd : 0 < d) (hbig : a * d * 4 < 2 ^ 53)
    (h : a * d < c * b) : fl (d * fl (a / b)) ≤ c := by
  have ha' : (0 : ℚ) < a := by exact_mod_cast ha
  have hb' : (0 : ℚ) < b := by exact_mod_cast hb
  have hd' : (0 : ℚ) < d := by exact_mod_cast hd
  have h1 := (abs_le.1 (fl_twice ha' hb' hd')).2
  have h' : (a : ℚ) * d + 1 ≤ c * b := by exact_mod_cast h
  have hbig' : (a : ℚ) * d * 4 < 2 ^ 53 := by exact_mod_cast hbig
  have : (d : ℚ) * a / b + 1 / b ≤ c := by
    rw [← add_div, div_le_iff₀ hb']
    linarith
  have : (d : ℚ) * a / b * (3 / 2 ^ 53) ≤ 1 / b := by
    rw [show (d : ℚ) * a / b * (3 / 2 ^ 53) = (a * d * 3 / 2 ^ 53) / b by ring]
    apply div_le_div_of_nonneg_right _ hb'.le
    rw [div_le_one (by positivity)]
    linarith [mul_pos ha' hd']
  linarith

end Bglib.Img
