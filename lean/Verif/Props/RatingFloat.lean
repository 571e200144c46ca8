import Verif.Lemmas.RatingFloat
/-
C112: the rating formulas as computed, with floating point numbers.
-/
namespace Bglib
open Spec Flt Img

private theorem chance_facts {m : MathLib} (hm : GoodLib m) {high low : ℚ} {len : Nat} (h : low ≤ high) :
    let x := fl (fl (fl (high - low) * m.sqrt len) / 2000)
    0 ≤ m.sqrt len ∧ 0 ≤ x ∧
    (∀ p, m.pow10 x = some p → 1 ≤ p ∧ 2 ≤ fl (p + 1) ∧ 0 < fl (1 / fl (p + 1)) ∧ fl (1 / fl (p + 1)) ≤ 1 / 2) := by
  have h0 : (0 : ℚ) ≤ m.sqrt ((0 : Nat) : ℚ) := by
    have := hm.sqrt_near 0
    simp at this
    simp [this]
  have hs : 0 ≤ m.sqrt (len : ℚ) := le_trans h0 (hm.sqrt_mono 0 len (Nat.zero_le _))
  have hx : 0 ≤ fl (fl (fl (high - low) * m.sqrt len) / 2000) := by
    apply fl_nonneg
    apply div_nonneg _ (by norm_num)
    exact fl_nonneg (mul_nonneg (fl_nonneg (sub_nonneg.2 h)) hs)
  refine ⟨hs, hx, fun p hp => ?_⟩
  obtain ⟨q, hq, hle⟩ := hm.pow_mono 0 _ p (le_refl _) hx hp
  rw [hm.pow_zero] at hq
  cases hq
  have h2 : 2 ≤ fl (p + 1) := by
    have := fl_mono (x := 2) (y := p + 1) (by norm_num) (by linarith)
    rwa [fl_two] at this
  have hpos : 0 < fl (p + 1) := by linarith
  refine ⟨hle, h2, fl_gt (by positivity), ?_⟩
  have := fl_mono (x := 1 / fl (p + 1)) (y := 1 / 2) (by positivity)
    (one_div_le_one_div_of_le (by norm_num) h2)
  rwa [fl_half] at this

private theorem upset_some {m : MathLib} {high low : ℚ} {len : Nat} {u : ℚ} (hu : Flt.upsetChance m high low len = .ok u) :
    low ≤ high ∧ ∃ p, m.pow10 (fl (fl (fl (high - low) * m.sqrt len) / 2000)) = some p ∧ u = fl (1 / fl (p + 1)) := by
  unfold Flt.upsetChance at hu
  split at hu
  · next h =>
    rw [if_neg (by omega)] at hu
    refine ⟨h, ?_⟩
    push_cast at hu
    split at hu
    · cases hu
    · next p hp => exact ⟨p, hp, (Except.ok.inj hu).symm⟩
  · cases hu

/-- **C112**: the chance of an upset is positive and at most one half, that of the favourite at least one half
and at most one; together they are one up to one unit in the last place; equals have exactly even chances. -/
theorem C112_chances (m : MathLib) (hm : GoodLib m) (high low : ℚ) (len : Nat) (u : ℚ)
    (hu : Flt.upsetChance m high low len = .ok u) :
    0 < u ∧ u ≤ 1 / 2 ∧ (high = low → u = 1 / 2) ∧
    ∃ w, Flt.winningChance m high low len = .ok w ∧ 1 / 2 ≤ w ∧ w ≤ 1 ∧ |u + w - 1| ≤ 1 / 2 ^ 53 := by
  obtain ⟨hle, p, hp, rfl⟩ := upset_some hu
  obtain ⟨_, _, hf⟩ := chance_facts hm (len := len) hle
  obtain ⟨h1, h2, h3, h4⟩ := hf p hp
  refine ⟨h3, h4, ?_, ?_⟩
  · rintro rfl
    rw [sub_self, fl_zero, zero_mul, fl_zero, zero_div, fl_zero, hm.pow_zero] at hp
    cases hp
    rw [show (1 : ℚ) + 1 = 2 by norm_num, fl_two, fl_half]
  · refine ⟨fl (1 - fl (1 / fl (p + 1))), ?_, ?_, ?_, ?_⟩
    · unfold Flt.winningChance; rw [hu]
    · have := fl_mono (x := 1 / 2) (y := 1 - fl (1 / fl (p + 1))) (by norm_num) (by linarith)
      rwa [fl_half] at this
    · have := fl_mono (x := 1 - fl (1 / fl (p + 1))) (y := 1) (by linarith) (by linarith)
      rwa [fl_one] at this
    · have := fl_err' (x := 1 - fl (1 / fl (p + 1))) (by linarith)
      have e : fl (1 / fl (p + 1)) + fl (1 - fl (1 / fl (p + 1))) - 1
          = fl (1 - fl (1 / fl (p + 1))) - (1 - fl (1 / fl (p + 1))) := by ring
      rw [e]
      refine le_trans this ?_
      apply div_le_div_of_nonneg_right _ (by positivity)
      linarith

/-- **C112**: a larger difference of ratings, or a longer match, never gives a larger chance of an upset; and
if it can be computed there, it can be computed for the smaller difference and the shorter match. -/
theorem C112_order (m : MathLib) (hm : GoodLib m) (high low high' low' : ℚ) (len len' : Nat) (u' : ℚ)
    (h : low ≤ high) (hd : high - low ≤ high' - low') (hl : len ≤ len')
    (hu : Flt.upsetChance m high' low' len' = .ok u') :
    ∃ u, Flt.upsetChance m high low len = .ok u ∧ u' ≤ u := by
  obtain ⟨hle, q, hq, rfl⟩ := upset_some hu
  obtain ⟨hs, hx, hf⟩ := chance_facts hm (len := len) h
  have hxx : fl (fl (fl (high - low) * m.sqrt len) / 2000) ≤ fl (fl (fl (high' - low') * m.sqrt len') / 2000) := by
    have a1 : 0 ≤ fl (high - low) := fl_nonneg (sub_nonneg.2 h)
    have a2 : fl (high - low) ≤ fl (high' - low') := fl_mono (sub_nonneg.2 h) hd
    have a3 := hm.sqrt_mono len len' hl
    have a4 : fl (high - low) * m.sqrt len ≤ fl (high' - low') * m.sqrt len' := by
      apply mul_le_mul a2 a3 hs; linarith
    apply fl_mono
    · exact div_nonneg (fl_nonneg (mul_nonneg a1 hs)) (by norm_num)
    · apply div_le_div_of_nonneg_right _ (by norm_num)
      exact fl_mono (mul_nonneg a1 hs) a4
  obtain ⟨p, hp, hpq⟩ := hm.pow_mono _ _ q hx hxx hq
  refine ⟨fl (1 / fl (p + 1)), ?_, ?_⟩
  · unfold Flt.upsetChance
    rw [if_pos h, if_neg (by omega)]
    push_cast
    rw [hp]
  · obtain ⟨h1, h2, _, _⟩ := hf p hp
    have : fl (p + 1) ≤ fl (q + 1) := fl_mono (by linarith) (by linarith)
    apply fl_mono
    · have : 0 < fl (q + 1) := by linarith
      positivity
    · exact one_div_le_one_div_of_le (by linarith) this

private theorem exponent_near {m : MathLib} (hm : GoodLib m) {high low : ℚ} {len : Nat} (hle : low ≤ high) :
    |((fl (fl (fl (high - low) * m.sqrt len) / 2000) : ℚ) : ℝ) - ((high : ℝ) - low) * Real.sqrt len / 2000|
      ≤ (8 / 2 ^ 53) * (((high : ℝ) - low) * Real.sqrt len / 2000) := by
  obtain ⟨hs, hx, hf⟩ := chance_facts hm (len := len) hle
  rw [show ((high : ℝ) - low) = ((high - low : ℚ) : ℝ) by push_cast; rfl]
  set d : ℚ := high - low with hd
  have hd0 : 0 ≤ d := sub_nonneg.2 hle
  set s : ℚ := m.sqrt len with hsd
  set S : ℝ := Real.sqrt len with hS
  have hS0 : 0 ≤ S := Real.sqrt_nonneg _
  set x : ℚ := fl (fl (fl d * s) / 2000) with hxd
  have hdR : (0 : ℝ) ≤ d := by exact_mod_cast hd0
  have hsnear : |(s : ℝ) - S| ≤ S / 2 ^ 52 := hm.sqrt_near len
  have cast : ∀ {a b c : ℚ}, |a - b| ≤ c → |(a : ℝ) - b| ≤ c := by
    intro a b c h
    have : (|a - b| : ℚ) ≤ c := h
    exact_mod_cast this
  have e1 : |((fl d : ℚ) : ℝ) - d| ≤ d / 2 ^ 53 := by
    have := cast (fl_err' hd0); push_cast at this; exact this
  have n1 : 0 ≤ fl d := fl_nonneg hd0
  have n2 : 0 ≤ fl d * s := mul_nonneg n1 hs
  have e2 : |((fl (fl d * s) : ℚ) : ℝ) - (fl d : ℚ) * s| ≤ ((fl d : ℚ) : ℝ) * s / 2 ^ 53 := by
    have := cast (fl_err' n2); push_cast at this; exact this
  have n3 : 0 ≤ fl (fl d * s) / 2000 := div_nonneg (fl_nonneg n2) (by norm_num)
  have e3 : |(x : ℝ) - ((fl (fl d * s) : ℚ) : ℝ) / 2000| ≤ ((fl (fl d * s) : ℚ) : ℝ) / 2000 / 2 ^ 53 := by
    have := cast (fl_err' n3); push_cast at this; exact this
  generalize ((fl d : ℚ) : ℝ) = a at e1 e2
  generalize ((fl (fl d * s) : ℚ) : ℝ) = b at e2 e3
  generalize (x : ℝ) = c at e3 ⊢
  have s1 := (abs_le.1 hsnear).1
  have s2 := (abs_le.1 hsnear).2
  have d1 := (abs_le.1 e1).1
  have d2 := (abs_le.1 e1).2
  have b1 := (abs_le.1 e2).1
  have b2 := (abs_le.1 e2).2
  have c1 := (abs_le.1 e3).1
  have c2 := (abs_le.1 e3).2
  generalize (s : ℝ) = s' at *
  generalize (d : ℝ) = d' at *
  have hs' : 0 ≤ s' := by
    have : S / 2 ^ 52 ≤ S := div_le_self hS0 (by norm_num)
    linarith
  have ha' : 0 ≤ a := by
    have : d' / 2 ^ 53 ≤ d' := div_le_self hdR (by norm_num)
    linarith
  have up1 : a * s' ≤ (d' * (1 + 1 / 2 ^ 53)) * (S * (1 + 1 / 2 ^ 52)) := by
    apply mul_le_mul (by linarith) (by linarith) hs'
    positivity
  have lo1 : (d' * (1 - 1 / 2 ^ 53)) * (S * (1 - 1 / 2 ^ 52)) ≤ a * s' := by
    apply mul_le_mul (by linarith) (by linarith) _ ha'
    apply mul_nonneg hS0 (by norm_num)
  have hdS : 0 ≤ d' * S := mul_nonneg hdR hS0
  rw [abs_le]
  generalize hT : d' * S = T at *
  have up2 : (d' * (1 + 1 / 2 ^ 53)) * (S * (1 + 1 / 2 ^ 52)) = T * ((1 + 1 / 2 ^ 53) * (1 + 1 / 2 ^ 52)) := by
    rw [← hT]; ring
  have lo2 : (d' * (1 - 1 / 2 ^ 53)) * (S * (1 - 1 / 2 ^ 52)) = T * ((1 - 1 / 2 ^ 53) * (1 - 1 / 2 ^ 52)) := by
    rw [← hT]; ring
  rw [up2] at up1
  rw [lo2] at lo1
  norm_num at up1 lo1 b1 b2 c1 c2 ⊢
  constructor <;> linarith

/-- **C112**: what is computed differs from the formula by less than 10^-14, whatever the ratings and the length. -/
theorem C112_near (m : MathLib) (hm : GoodLib m) (high low : ℚ) (len : Nat) (u : ℚ)
    (hu : Flt.upsetChance m high low len = .ok u) :
    |(u : ℝ) - chance low high len| ≤ 1 / 10 ^ 14 := by
  obtain ⟨hle, p, hp, rfl⟩ := upset_some hu
  obtain ⟨hs, hx, hf⟩ := chance_facts hm (len := len) hle
  obtain ⟨h1, h2, h3, h4⟩ := hf p hp
  have near := hm.pow_near _ p hx hp
  set d : ℚ := high - low with hd
  have hd0 : 0 ≤ d := sub_nonneg.2 hle
  set s : ℚ := m.sqrt len with hsd
  set S : ℝ := Real.sqrt len with hS
  have hS0 : 0 ≤ S := Real.sqrt_nonneg _
  set x : ℚ := fl (fl (fl d * s) / 2000) with hxd
  set Y : ℝ := (d : ℝ) * S / 2000 with hY
  have hdR : (0 : ℝ) ≤ d := by exact_mod_cast hd0
  have hY0 : 0 ≤ Y := by positivity
  have cast : ∀ {a b c : ℚ}, |a - b| ≤ c → |(a : ℝ) - b| ≤ c := by
    intro a b c h
    have : (|a - b| : ℚ) ≤ c := h
    exact_mod_cast this
  have ex : |(x : ℝ) - Y| ≤ (8 / 2 ^ 53) * Y := by
    have := exponent_near hm (len := len) hle
    rw [show ((high : ℝ) - low) = ((high - low : ℚ) : ℝ) by push_cast; rfl] at this
    exact this
  have hlog := logistic_near (x := (x : ℝ)) (y := Y) (ε := 8 / 2 ^ 53) hY0 (by norm_num) (by norm_num) ex
  -- the power
  have hP1 : 1 ≤ (10 : ℝ) ^ (x : ℝ) := one_le_pow10 (by exact_mod_cast hx)
  have hp1 : (1 : ℝ) ≤ p := by exact_mod_cast h1
  have hq2 : (2 : ℝ) ≤ ((fl (p + 1) : ℚ) : ℝ) := by exact_mod_cast h2
  have f1 : |((fl (p + 1) : ℚ) : ℝ) - (p + 1)| ≤ (p + 1 : ℝ) / 2 ^ 53 := by
    have := cast (fl_err' (x := p + 1) (by linarith)); push_cast at this; exact this
  have f2 : |((fl (1 / fl (p + 1)) : ℚ) : ℝ) - 1 / ((fl (p + 1) : ℚ) : ℝ)| ≤ 1 / ((fl (p + 1) : ℚ) : ℝ) / 2 ^ 53 := by
    have hq : 0 < fl (p + 1) := by linarith
    have := cast (fl_err' (x := 1 / fl (p + 1)) (by positivity)); push_cast at this; exact this
  generalize ((fl (1 / fl (p + 1)) : ℚ) : ℝ) = u at f2 ⊢
  generalize ((fl (p + 1) : ℚ) : ℝ) = q at f1 f2 hq2
  generalize (10 : ℝ) ^ (x : ℝ) = P at *
  generalize (p : ℝ) = r at *
  have g0 : |u - 1 / q| ≤ 1 / 2 ^ 53 := by
    refine le_trans f2 (div_le_div_of_nonneg_right ?_ (by positivity))
    rw [div_le_one (by linarith)]; linarith
  have g1 : |1 / q - 1 / (r + 1)| ≤ 1 / 2 ^ 53 := by
    rw [div_sub_div _ _ (by linarith) (by linarith), abs_div, abs_of_pos (show 0 < q * (r + 1) by nlinarith)]
    rw [div_le_iff₀ (by nlinarith)]
    have : |1 * (r + 1) - q * 1| = |q - (r + 1)| := by rw [one_mul, mul_one, abs_sub_comm]
    rw [this]
    refine le_trans f1 ?_
    have : (r + 1) ≤ q * (r + 1) := by nlinarith
    calc _ ≤ q * (r + 1) / 2 ^ 53 := div_le_div_of_nonneg_right this (by positivity)
      _ = _ := by ring
  have g2 : |1 / (r + 1) - 1 / (P + 1)| ≤ 1 / 2 ^ 52 := by
    rw [div_sub_div _ _ (by linarith) (by linarith), abs_div, abs_of_pos (show 0 < (r + 1) * (P + 1) by nlinarith)]
    rw [div_le_iff₀ (by nlinarith)]
    have : |1 * (P + 1) - (r + 1) * 1| = |r - P| := by
      rw [one_mul, mul_one, abs_sub_comm]; congr 1; ring
    rw [this]
    refine le_trans near ?_
    have : P ≤ (r + 1) * (P + 1) := by nlinarith
    calc _ ≤ (r + 1) * (P + 1) / 2 ^ 52 := div_le_div_of_nonneg_right this (by positivity)
      _ = _ := by ring
  have hU : chance (low : ℝ) high len = 1 / ((10 : ℝ) ^ Y + 1) := by
    unfold chance
    rw [add_comm]
    congr 3
    rw [hY, hd, hS]
    push_cast
    rfl
  rw [hU]
  have t1 := abs_add_le (u - 1 / q) (1 / q - 1 / (r + 1))
  have t2 := abs_add_le (u - 1 / (r + 1)) (1 / (r + 1) - 1 / (P + 1))
  have t3 := abs_add_le (u - 1 / (P + 1)) (1 / (P + 1) - 1 / ((10 : ℝ) ^ Y + 1))
  rw [sub_add_sub_cancel] at t1 t2 t3
  have k : (1 : ℝ) / 2 ^ 53 + 1 / 2 ^ 53 + 1 / 2 ^ 52 + 3 * (8 / 2 ^ 53) ≤ 1 / 10 ^ 14 := by norm_num
  linarith

/-- **C112**: the two gains of a match of `len` points lie on the right sides of half the length, the favourite's
below, and are together the length up to rounding. -/
theorem C112_gains (m : MathLib) (hm : GoodLib m) (high low : ℚ) (len : Nat) (hlen : len < 2 ^ 53)
    (h : low ≤ high) (g : ℚ) (hg : Flt.gainOnWin m high low len = .ok g) :
    0 ≤ g ∧ g ≤ len / 2 ∧
    ∃ g', Flt.gainOnWin m low high len = .ok g' ∧ len / 2 ≤ g' ∧ g' ≤ len ∧ |g + g' - len| ≤ len / 2 ^ 51 := by
  have hgu : ∃ u, Flt.upsetChance m high low len = .ok u ∧ g = fl (len * u) := by
    unfold Flt.gainOnWin at hg
    rw [if_pos h] at hg
    split at hg
    · cases hg
    · next u hu => exact ⟨u, hu, by rw [← Except.ok.inj hg]; push_cast; rfl⟩
  obtain ⟨u, hu, rfl⟩ := hgu
  obtain ⟨u0, u1, ueq, w, hw, w1, w2, huw⟩ := C112_chances m hm high low len u hu
  have hw' : fl (1 - u) = w := by
    unfold Flt.winningChance at hw
    rw [hu] at hw
    exact Except.ok.inj hw
  have hL : (0 : ℚ) ≤ len := Nat.cast_nonneg _
  have flhalf : fl ((len : ℚ) / 2) = len / 2 := by
    rcases Nat.eq_zero_or_pos len with rfl | hpos
    · simp [fl_zero]
    · have := fl_exact (n := (len : Int)) 1 (by exact_mod_cast hpos) (by exact_mod_cast hlen)
      simpa using this
  have flfull : fl (len : ℚ) = len := by
    rcases Nat.eq_zero_or_pos len with rfl | hpos
    · simp [fl_zero]
    · have := fl_int (n := (len : Int)) (by exact_mod_cast hpos) (by exact_mod_cast hlen)
      simpa using this
  have b0 : 0 ≤ (len : ℚ) * u := mul_nonneg hL u0.le
  have b1 : (len : ℚ) * u ≤ len / 2 := by nlinarith
  have b2 : (len : ℚ) / 2 ≤ len * w := by nlinarith
  have b3 : (len : ℚ) * w ≤ len := by nlinarith
  have k1 : fl ((len : ℚ) * u) ≤ len / 2 := by
    have := fl_mono b0 b1
    rwa [flhalf] at this
  refine ⟨fl_nonneg b0, k1, ?_⟩
  rcases h.eq_or_lt with rfl | hlt
  · -- equals: both gains are the same
    have e := ueq rfl
    subst e
    refine ⟨fl (len * (1 / 2)), ?_, ?_⟩
    · exact hg
    · have : (len : ℚ) * (1 / 2) = len / 2 := by ring
      rw [this, flhalf]
      refine ⟨le_refl _, by linarith, ?_⟩
      rw [add_halves, sub_self, abs_zero]
      positivity
  · refine ⟨fl (len * w), ?_, ?_, ?_, ?_⟩
    · unfold Flt.gainOnWin
      rw [if_neg (not_le.2 hlt), hu]
      dsimp only
      rw [hw']
      push_cast
      rfl
    · have := fl_mono (x := (len : ℚ) / 2) (y := len * w) (by positivity) b2
      rwa [flhalf] at this
    · have := fl_mono (x := (len : ℚ) * w) (y := len) (by linarith) b3
      rwa [flfull] at this
    · have r1 := abs_le.1 (fl_err' b0)
      have r2 := abs_le.1 (fl_err' (x := (len : ℚ) * w) (by linarith))
      have r3 := abs_le.1 huw
      rw [abs_le]
      have c1 : (len : ℚ) * u / 2 ^ 53 ≤ len / 2 ^ 53 := div_le_div_of_nonneg_right (by linarith) (by positivity)
      have c2 : (len : ℚ) * w / 2 ^ 53 ≤ len / 2 ^ 53 := div_le_div_of_nonneg_right (by linarith) (by positivity)
      have c3 : (len : ℚ) * (u + w - 1) ≤ len / 2 ^ 53 := by
        have := mul_le_mul_of_nonneg_left r3.2 hL
        linarith
      have c4 : -((len : ℚ) / 2 ^ 53) ≤ (len : ℚ) * (u + w - 1) := by
        have := mul_le_mul_of_nonneg_left r3.1 hL
        linarith
      have c5 : (len : ℚ) / 2 ^ 51 = 4 * (len / 2 ^ 53) := by ring
      have c6 : 0 ≤ (len : ℚ) / 2 ^ 53 := by positivity
      have c7 : (len : ℚ) * (u + w - 1) = len * u + len * w - len := by ring
      constructor <;> linarith

/-- **C112**: there is an answer for all ratings and lengths that occur, that is unless the difference times the
root of the length is above 600000. -/
theorem C112_computed (m : MathLib) (hm : GoodLib m) (high low : ℚ) (len : Nat) (h : low ≤ high)
    (hb : ((high : ℝ) - low) * Real.sqrt len ≤ 600000) : ∃ u, Flt.upsetChance m high low len = .ok u := by
  obtain ⟨_, hx, _⟩ := chance_facts hm (len := len) h
  have ex := (abs_le.1 (exponent_near hm (len := len) h)).2
  have hsmall : fl (fl (fl (high - low) * m.sqrt len) / 2000) ≤ 308 := by
    have : ((fl (fl (fl (high - low) * m.sqrt len) / 2000) : ℚ) : ℝ) ≤ 308 := by
      norm_num at ex ⊢
      linarith
    exact_mod_cast this
  have hne := hm.pow_small _ hx hsmall
  obtain ⟨p, hp⟩ := Option.ne_none_iff_exists'.1 hne
  refine ⟨fl (1 / fl (p + 1)), ?_⟩
  unfold Flt.upsetChance
  rw [if_pos h, if_neg (by omega)]
  push_cast
  rw [hp]

/-- **C112** is false in the extreme: if the difference times the root of the length is above 620000, the chance
cannot be computed and OverflowError is raised, although the formula gives a number. -/
theorem C112_false_overflow (m : MathLib) (hm : GoodLib m) (high low : ℚ) (len : Nat) (h : low ≤ high)
    (hb : 620000 ≤ ((high : ℝ) - low) * Real.sqrt len) :
    Flt.upsetChance m high low len = .error .overflow ∧ ∃ u, upsetChance (high : ℝ) low len = .ok u := by
  have ex := (abs_le.1 (exponent_near hm (len := len) h)).1
  have hlarge : 309 ≤ fl (fl (fl (high - low) * m.sqrt len) / 2000) := by
    have : (309 : ℝ) ≤ ((fl (fl (fl (high - low) * m.sqrt len) / 2000) : ℚ) : ℝ) := by
      norm_num at ex ⊢
      linarith
    exact_mod_cast this
  constructor
  · unfold Flt.upsetChance
    rw [if_pos h, if_neg (by omega)]
    push_cast
    rw [hm.pow_large _ hlarge]
  · exact ⟨_, upset_eq _ _ _ (by exact_mod_cast h) (by positivity)⟩

/-- **C112**: the other way round is refused, and so is a negative length. -/
theorem C112_refused (m : MathLib) (high low : ℚ) (len : Int) :
    (high < low → Flt.upsetChance m high low len = .error .assertion) ∧
    (low ≤ high → len < 0 → Flt.upsetChance m high low len = .error .valueError) := by
  constructor
  · intro h
    unfold Flt.upsetChance
    rw [if_neg (not_le.2 h)]
  · intro h hl
    unfold Flt.upsetChance
    rw [if_pos h, if_pos hl]

/-- A library that rounds down to sixty binary places. -/
private noncomputable def downLib : MathLib where
  sqrt a := (⌊Real.sqrt (a : ℝ) * 2 ^ 60⌋ : ℚ) / 2 ^ 60
  pow10 x := open Classical in
    if (10 : ℝ) ^ (x : ℝ) < 2 ^ 1024 then some ((⌊(10 : ℝ) ^ (x : ℝ) * 2 ^ 60⌋ : ℚ) / 2 ^ 60) else none

private theorem down_near {y : ℝ} (hy : y = 0 ∨ 1 ≤ y) :
    |(((⌊y * 2 ^ 60⌋ : ℚ) / 2 ^ 60 : ℚ) : ℝ) - y| ≤ y / 2 ^ 52 := by
  push_cast
  rcases hy with rfl | hy
  · simp
  · have h1 := Int.floor_le (y * 2 ^ 60)
    have h2 := Int.lt_floor_add_one (y * 2 ^ 60)
    have e : ((⌊y * 2 ^ 60⌋ : ℤ) : ℝ) / 2 ^ 60 - y = (⌊y * 2 ^ 60⌋ - y * 2 ^ 60) / 2 ^ 60 := by field_simp
    rw [e, abs_div, abs_of_pos (show (0 : ℝ) < 2 ^ 60 by positivity), div_le_iff₀ (by positivity), abs_le]
    have e2 : y / 2 ^ 52 * 2 ^ 60 = 256 * y := by ring
    rw [e2]
    generalize ((⌊y * 2 ^ 60⌋ : ℤ) : ℝ) = f at *
    constructor <;> linarith

private theorem down_mono {x y : ℝ} (h : x ≤ y) : (⌊x * 2 ^ 60⌋ : ℚ) / 2 ^ 60 ≤ (⌊y * 2 ^ 60⌋ : ℚ) / 2 ^ 60 := by
  apply div_le_div_of_nonneg_right _ (by positivity)
  exact_mod_cast Int.floor_le_floor (mul_le_mul_of_nonneg_right h (by positivity))

private theorem down_some {x : ℚ} (h : (10 : ℝ) ^ (x : ℝ) < 2 ^ 1024) :
    downLib.pow10 x = some ((⌊(10 : ℝ) ^ (x : ℝ) * 2 ^ 60⌋ : ℚ) / 2 ^ 60) := by
  simp only [downLib]; exact if_pos h

private theorem down_none {x : ℚ} (h : ¬ (10 : ℝ) ^ (x : ℝ) < 2 ^ 1024) : downLib.pow10 x = none := by
  simp only [downLib]; exact if_neg h

/-- Not vacuous: what is assumed of the library can be met. -/
theorem C112_lib : ∃ m, GoodLib m := by
  refine ⟨downLib, ?_, ?_, ?_, ?_, ?_, ?_, ?_⟩
  · intro a b h
    apply down_mono
    apply Real.sqrt_le_sqrt
    exact_mod_cast h
  · intro a
    have := down_near (y := Real.sqrt a) (by
      rcases Nat.eq_zero_or_pos a with rfl | h
      · left; simp
      · right; rw [Real.one_le_sqrt]; exact_mod_cast h)
    simpa [downLib] using this
  · have e : (10 : ℝ) ^ (((0 : ℚ)) : ℝ) = 1 := by simp
    rw [down_some (by rw [e]; exact one_lt_pow₀ (by norm_num) (by norm_num)), e]
    have : ⌊(1 : ℝ) * 2 ^ 60⌋ = 2 ^ 60 := by
      rw [one_mul, show (2 : ℝ) ^ 60 = ((2 ^ 60 : ℤ) : ℝ) by norm_num, Int.floor_intCast]
    rw [this]
    norm_num
  · intro x y q hx h hq
    have hle : (10 : ℝ) ^ (x : ℝ) ≤ (10 : ℝ) ^ (y : ℝ) :=
      Real.rpow_le_rpow_of_exponent_le (by norm_num) (by exact_mod_cast h)
    by_cases hlt : (10 : ℝ) ^ (y : ℝ) < 2 ^ 1024
    · rw [down_some hlt] at hq
      rw [← Option.some.inj hq]
      exact ⟨_, down_some (lt_of_le_of_lt hle hlt), down_mono hle⟩
    · rw [down_none hlt] at hq
      cases hq
  · intro x p hx hp
    by_cases hlt : (10 : ℝ) ^ (x : ℝ) < 2 ^ 1024
    · rw [down_some hlt] at hp
      rw [← Option.some.inj hp]
      exact down_near (.inr (one_le_pow10 (by exact_mod_cast hx)))
    · rw [down_none hlt] at hp
      cases hp
  · intro x _ hx
    rw [down_some]
    · exact Option.some_ne_none _
    · have h1 : (10 : ℝ) ^ (x : ℝ) ≤ (10 : ℝ) ^ (308 : ℝ) :=
        Real.rpow_le_rpow_of_exponent_le (by norm_num) (by exact_mod_cast hx)
      have h2 : (10 : ℝ) ^ (308 : ℝ) = (10 : ℝ) ^ (308 : ℕ) := by rw [← Real.rpow_natCast, Nat.cast_ofNat]
      rw [h2] at h1
      refine lt_of_le_of_lt h1 ?_
      have : (((10 : ℕ) ^ 308 : ℕ) : ℝ) < ((2 ^ 1024 : ℕ) : ℝ) := Nat.cast_lt.2 (by decide +kernel)
      rwa [Nat.cast_pow, Nat.cast_pow, Nat.cast_ofNat, Nat.cast_ofNat] at this
  · intro x hx
    apply down_none
    have h1 : (10 : ℝ) ^ (309 : ℝ) ≤ (10 : ℝ) ^ (x : ℝ) :=
      Real.rpow_le_rpow_of_exponent_le (by norm_num) (by exact_mod_cast hx)
    have h2 : (10 : ℝ) ^ (309 : ℝ) = (10 : ℝ) ^ (309 : ℕ) := by rw [← Real.rpow_natCast, Nat.cast_ofNat]
    rw [h2] at h1
    refine not_lt.2 (le_trans ?_ h1)
    have : ((2 ^ 1024 : ℕ) : ℝ) ≤ (((10 : ℕ) ^ 309 : ℕ) : ℝ) := Nat.cast_le.2 (by decide +kernel)
    rwa [Nat.cast_pow, Nat.cast_pow, Nat.cast_ofNat, Nat.cast_ofNat] at this

/-- Not vacuous: the ratings of the tests (rating_test.py:19-21) have a chance, within 10^-14 of the formula. -/
example (m : MathLib) (hm : GoodLib m) : ∃ u, Flt.upsetChance m 1100 1000 9 = .ok u ∧
    |(u : ℝ) - chance 1000 1100 9| ≤ 1 / 10 ^ 14 := by
  obtain ⟨u, hu⟩ := C112_computed m hm 1100 1000 9 (by norm_num) (by
    have : Real.sqrt ((9 : Nat) : ℝ) ≤ 9 := by
      rw [Real.sqrt_le_left (by norm_num)]; norm_num
    push_cast at *
    nlinarith)
  refine ⟨u, by simpa using hu, ?_⟩
  simpa using C112_near m hm 1100 1000 9 u hu

end Bglib
