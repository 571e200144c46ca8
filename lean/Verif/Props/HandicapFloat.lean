import Verif.Lemmas.HandicapFloat
import Verif.Props.RatingFloat
import Verif.Props.Stat
/-
C116: the handicaps as computed, with floating point numbers.
-/
namespace Bglib
open Spec Flt Img

private theorem even_upset {m : MathLib} (hm : GoodLib m) (a : ℚ) (len : Nat) :
    Flt.upsetChance m a a len = .ok (1 / 2) := by
  obtain ⟨u, hu⟩ := C112_computed m hm a a len (le_refl _) (by simp)
  rw [hu, (C112_chances m hm a a len u hu).2.2.1 rfl]

private theorem half_pow (r : Nat) : fl ((1 / 2) ^ r) = (1 / 2) ^ r := by
  have := fl_exact (n := 1) r (by norm_num) (by norm_num)
  simpa using this

private theorem even_chance {m : PowLib} (hm : GoodPow m) (a : ℚ) (r len : Nat) (h1 : 1 ≤ r) (h2 : r ≤ 1022) :
    Flt.tourneyChance m a a r len = .ok ((1 / 2) ^ r, (1 / 2) ^ r) := by
  unfold Flt.tourneyChance
  rw [if_pos (le_refl _), even_upset hm.good]
  have e : (1 : ℚ) - 1 / 2 = 1 / 2 := by norm_num
  have e2 : ((r : Int) - 1) = ((r - 1 : Nat) : Int) := by omega
  simp only [e, fl_half]
  rw [e2, hm.pow_half r h2, hm.pow_half (r - 1) (by omega)]
  have e3 : ((1 : ℚ) / 2) ^ (r - 1) * (1 / 2) = (1 / 2) ^ r := by
    rw [← pow_succ]; congr 1; omega
  rw [e3, half_pow]

private theorem half_zpow (r : Nat) : ((1 : ℚ) / 2) ^ r = 2 ^ (-(r : Int)) := by
  rw [zpow_neg, zpow_natCast, one_div, inv_pow]

private theorem fl_down {x : ℚ} (hx : IsFloat x) (r : Nat) : fl ((1 / 2) ^ r * x) = (1 / 2) ^ r * x := by
  have hx : fl x = x := hx
  rw [mul_comm, half_zpow, fl_scale, hx]

private theorem fl_up {x : ℚ} (hx : IsFloat x) (r : Nat) : fl (x / (1 / 2) ^ r) = x / (1 / 2) ^ r := by
  have hx : fl x = x := hx
  have : x / (1 / 2) ^ r = x * 2 ^ (r : Int) := by
    rw [half_zpow, zpow_neg, div_inv_eq_mul]
  rw [this, fl_scale, hx]

/-- **C116**: who is as strong as the average plays for exactly the prizes and pays exactly the fee that were
set, for every number of rounds up to 1022. -/
theorem C116_average (m : PowLib) (hm : GoodPow m) (a : ℚ) (r len : Nat) (h1 : 1 ≤ r) (h2 : r ≤ 1022)
    (winner runnerup fee : ℚ) (hw : IsFloat winner) (hr : IsFloat runnerup) (hf : IsFloat fee) :
    Flt.prizeHandicap m a a r len winner runnerup = .ok (winner, runnerup) ∧
      Flt.entryfeeHandicap m a a r len fee = .ok fee := by
  have hp : ((1 : ℚ) / 2) ^ r ≠ 0 := by positivity
  have hw' : fl winner = winner := hw
  have hr' : fl runnerup = runnerup := hr
  have hf' : fl fee = fee := hf
  constructor
  · unfold Flt.prizeHandicap quotient
    simp only [even_chance hm a r len h1 h2, bind, Except.bind, pure, Except.pure, hp, if_false, fl_down hw, fl_down hr]
    rw [mul_div_cancel_left₀ _ hp, mul_div_cancel_left₀ _ hp, hw', hr']
  · unfold Flt.entryfeeHandicap quotient
    simp only [even_chance hm a r len h1 h2, bind, Except.bind, pure, Except.pure, hp, if_false, fl_up hf]
    rw [div_mul_cancel₀ _ hp, hf']

/-- What the chances of a tournament come from: the chance of a match. -/
private theorem chance_base {m : PowLib} (hm : GoodPow m) {player average : ℚ} {r len : Nat} {w q : ℚ}
    (h : Flt.tourneyChance m player average r len = .ok (w, q)) :
    ∃ x, 0 < x ∧ x ≤ 1 ∧ w = m.pow x r ∧
      ((average ≤ player ∧ ∃ u, Flt.upsetChance m.toMathLib player average len = .ok u ∧ x = fl (1 - u)) ∨
        (player < average ∧ Flt.upsetChance m.toMathLib average player len = .ok x)) := by
  unfold Flt.tourneyChance at h
  split at h
  · next hge =>
    split at h
    · cases h
    · next u hu =>
      obtain ⟨c1, c2, _⟩ := C112_chances m.toMathLib hm.good player average len u hu
      have e := Except.ok.inj h
      simp only [Prod.mk.injEq] at e
      refine ⟨fl (1 - u), fl_gt (by linarith), ?_, e.1.symm, Or.inl ⟨hge, u, hu, rfl⟩⟩
      have := fl_mono (x := 1 - u) (y := 1) (by linarith) (by linarith)
      rwa [fl_one] at this
  · next hlt =>
    split at h
    · cases h
    · next u hu =>
      obtain ⟨c1, c2, _⟩ := C112_chances m.toMathLib hm.good average player len u hu
      have e := Except.ok.inj h
      simp only [Prod.mk.injEq] at e
      exact ⟨u, c1, by linarith, e.1.symm, Or.inr ⟨not_le.1 hlt, hu⟩⟩

/-- **C116**: the stronger player has the better chance to win the tournament, as computed. -/
theorem C116_order (m : PowLib) (hm : GoodPow m) (player player' average : ℚ) (r len : Nat) (h : player ≤ player')
    (w q w' q' : ℚ) (hw : Flt.tourneyChance m player average r len = .ok (w, q))
    (hw' : Flt.tourneyChance m player' average r len = .ok (w', q')) : w ≤ w' := by
  obtain ⟨x, x0, x1, rfl, hx⟩ := chance_base hm hw
  obtain ⟨y, y0, y1, rfl, hy⟩ := chance_base hm hw'
  refine hm.pow_mono x y r x0 ?_ y1
  rcases hx with ⟨g, u, hu, rfl⟩ | ⟨g, hu⟩
  · rcases hy with ⟨g', u', hu', rfl⟩ | ⟨g', hu'⟩
    · obtain ⟨v, hv, hle⟩ := C112_order m.toMathLib hm.good player average player' average len len u' g (by linarith)
        (Nat.le_refl _) hu'
      rw [hu] at hv
      have hv := Except.ok.inj hv
      subst hv
      obtain ⟨c1, c2, _⟩ := C112_chances m.toMathLib hm.good player average len u hu
      exact fl_mono (by linarith) (by linarith)
    · linarith
  · obtain ⟨c1, c2, _⟩ := C112_chances m.toMathLib hm.good average player len x hu
    rcases hy with ⟨g', u', hu', rfl⟩ | ⟨g', hu'⟩
    · obtain ⟨d1, d2, _⟩ := C112_chances m.toMathLib hm.good player' average len u' hu'
      have := fl_mono (x := 1 / 2) (y := 1 - u') (by norm_num) (by linarith)
      rw [fl_half] at this
      linarith
    · obtain ⟨v, hv, hle⟩ := C112_order m.toMathLib hm.good average player' average player len len x (by linarith) (by linarith)
        (Nat.le_refl _) hu
      rw [hu'] at hv
      have hv := Except.ok.inj hv
      subst hv
      exact hle

private theorem prize_parts {m : PowLib} (hm : GoodPow m) {player average winner runnerup p q : ℚ} {r len : Nat}
    (h1 : 1 ≤ r) (h2 : r ≤ 1022) (hw : IsFloat winner) (hr : IsFloat runnerup)
    (h : Flt.prizeHandicap m player average r len winner runnerup = .ok (p, q)) :
    ∃ w c, Flt.tourneyChance m player average r len = .ok (w, c) ∧ w ≠ 0 ∧ c ≠ 0 ∧
      p = fl ((1 / 2) ^ r * winner / w) ∧ q = fl ((1 / 2) ^ r * runnerup / c) := by
  unfold Flt.prizeHandicap at h
  simp only [even_chance hm average r len h1 h2, bind, Except.bind, pure, Except.pure, fl_down hw, fl_down hr] at h
  cases hc : Flt.tourneyChance m player average r len with
  | error e => rw [hc] at h; cases h
  | ok t =>
    obtain ⟨w, c⟩ := t
    rw [hc] at h
    simp only [quotient] at h
    by_cases w0 : w = 0
    · simp only [w0, if_true] at h; cases h
    · simp only [w0, if_false] at h
      by_cases c0 : c = 0
      · simp only [c0, if_true] at h; cases h
      · simp only [c0, if_false] at h
        have e := Except.ok.inj h
        simp only [Prod.mk.injEq] at e
        exact ⟨w, c, rfl, w0, c0, e.1.symm, e.2.symm⟩

private theorem fee_parts {m : PowLib} (hm : GoodPow m) {player average fee p : ℚ} {r len : Nat}
    (h1 : 1 ≤ r) (h2 : r ≤ 1022) (hf : IsFloat fee) (h : Flt.entryfeeHandicap m player average r len fee = .ok p) :
    ∃ w c, Flt.tourneyChance m player average r len = .ok (w, c) ∧ p = fl (fee / (1 / 2) ^ r * w) := by
  have hp : ((1 : ℚ) / 2) ^ r ≠ 0 := by positivity
  unfold Flt.entryfeeHandicap quotient at h
  simp only [even_chance hm average r len h1 h2, bind, Except.bind, pure, Except.pure, hp, if_false, fl_up hf] at h
  cases hc : Flt.tourneyChance m player average r len with
  | error e => rw [hc] at h; cases h
  | ok t =>
    rw [hc] at h
    exact ⟨t.1, t.2, rfl, (Except.ok.inj h).symm⟩

private theorem win_pos {m : PowLib} (hm : GoodPow m) {player average w c : ℚ} {r len : Nat}
    (h : Flt.tourneyChance m player average r len = .ok (w, c)) : 0 ≤ w := by
  obtain ⟨x, x0, _, rfl, _⟩ := chance_base hm h
  exact hm.pow_nonneg x r x0

private theorem runner_pos {m : PowLib} (hm : GoodPow m) {player average w c : ℚ} {r len : Nat} (h1 : 1 ≤ r)
    (h : Flt.tourneyChance m player average r len = .ok (w, c)) : 0 ≤ c := by
  have e2 : ((r : Int) - 1) = ((r - 1 : Nat) : Int) := by omega
  unfold Flt.tourneyChance at h
  rw [e2] at h
  split at h
  · split at h
    · cases h
    · next u hu =>
      obtain ⟨c1, c2, _⟩ := C112_chances m.toMathLib hm.good player average len u hu
      have e := Except.ok.inj h
      simp only [Prod.mk.injEq] at e
      rw [← e.2]
      exact fl_nonneg (mul_nonneg (hm.pow_nonneg _ _ (fl_gt (by linarith))) c1.le)
  · split at h
    · cases h
    · next u hu =>
      obtain ⟨c1, c2, _⟩ := C112_chances m.toMathLib hm.good average player len u hu
      have e := Except.ok.inj h
      simp only [Prod.mk.injEq] at e
      rw [← e.2]
      exact fl_nonneg (mul_nonneg (hm.pow_nonneg _ _ c1) (fl_nonneg (by linarith)))

private theorem quotient_fair {e w : ℚ} (he : 0 ≤ e) (hw : 0 < w) : |fl (e / w) * w - e| ≤ e / 2 ^ 53 := by
  have h := fl_err' (x := e / w) (by positivity)
  have : fl (e / w) * w - e = (fl (e / w) - e / w) * w := by field_simp
  rw [this, abs_mul, abs_of_pos hw]
  calc _ ≤ e / w / 2 ^ 53 * w := mul_le_mul_of_nonneg_right h hw.le
    _ = e / 2 ^ 53 := by field_simp

/-- **C116**: the handicapped prizes are fair: prize times chance is for everybody what it is for the average, and
the handicapped fee is the fee of the average in proportion to the chances, up to one unit in the last place. -/
theorem C116_fair (m : PowLib) (hm : GoodPow m) (player average : ℚ) (r len : Nat) (h1 : 1 ≤ r) (h2 : r ≤ 1022)
    (winner runnerup fee p q pf : ℚ) (hw : IsFloat winner) (hr : IsFloat runnerup) (hf : IsFloat fee)
    (w0 : 0 ≤ winner) (r0 : 0 ≤ runnerup) (f0 : 0 ≤ fee)
    (hp : Flt.prizeHandicap m player average r len winner runnerup = .ok (p, q))
    (hq : Flt.entryfeeHandicap m player average r len fee = .ok pf) :
    ∃ w c, Flt.tourneyChance m player average r len = .ok (w, c) ∧
      |p * w - winner / 2 ^ r| ≤ winner / 2 ^ r / 2 ^ 53 ∧ |q * c - runnerup / 2 ^ r| ≤ runnerup / 2 ^ r / 2 ^ 53 ∧
      |pf - fee * 2 ^ r * w| ≤ fee * 2 ^ r * w / 2 ^ 53 := by
  obtain ⟨w, c, hc, wn, cn, rfl, rfl⟩ := prize_parts hm h1 h2 hw hr hp
  obtain ⟨w', c', hc', rfl⟩ := fee_parts hm h1 h2 hf hq
  rw [hc] at hc'
  have e := Except.ok.inj hc'
  simp only [Prod.mk.injEq] at e
  obtain ⟨rfl, rfl⟩ := e
  have wp : 0 < w := lt_of_le_of_ne (win_pos hm hc) (Ne.symm wn)
  have cp : 0 < c := lt_of_le_of_ne (runner_pos hm h1 hc) (Ne.symm cn)
  have s : ∀ x : ℚ, (1 / 2) ^ r * x = x / 2 ^ r := by
    intro x; rw [one_div, inv_pow]; field_simp
  have s2 : fee / (1 / 2) ^ r = fee * 2 ^ r := by rw [one_div, inv_pow, div_inv_eq_mul]
  refine ⟨w, c, hc, ?_, ?_, ?_⟩
  · rw [s]; exact quotient_fair (by positivity) wp
  · rw [s]; exact quotient_fair (by positivity) cp
  · rw [s2]; exact fl_err' (by positivity)

/-- **C116**: a stronger player plays for no more and pays no less. -/
theorem C116_handicap (m : PowLib) (hm : GoodPow m) (player player' average : ℚ) (r len : Nat) (h : player ≤ player')
    (h1 : 1 ≤ r) (h2 : r ≤ 1022) (winner runnerup fee : ℚ) (hw : IsFloat winner) (hr : IsFloat runnerup)
    (hf : IsFloat fee) (w0 : 0 ≤ winner) (f0 : 0 ≤ fee) (p q pf p' q' pf' : ℚ)
    (hp : Flt.prizeHandicap m player average r len winner runnerup = .ok (p, q))
    (hq : Flt.entryfeeHandicap m player average r len fee = .ok pf)
    (hp' : Flt.prizeHandicap m player' average r len winner runnerup = .ok (p', q'))
    (hq' : Flt.entryfeeHandicap m player' average r len fee = .ok pf') : p' ≤ p ∧ pf ≤ pf' := by
  obtain ⟨w, c, hc, wn, cn, rfl, rfl⟩ := prize_parts hm h1 h2 hw hr hp
  obtain ⟨w1, c1, hc1, rfl⟩ := fee_parts hm h1 h2 hf hq
  obtain ⟨w', c', hc', wn', cn', rfl, rfl⟩ := prize_parts hm h1 h2 hw hr hp'
  obtain ⟨w2, c2, hc2, rfl⟩ := fee_parts hm h1 h2 hf hq'
  have o := C116_order m hm player player' average r len h w c w' c' hc hc'
  have o2 := C116_order m hm player player' average r len h w1 c1 w2 c2 hc1 hc2
  have wp : 0 < w := lt_of_le_of_ne (win_pos hm hc) (Ne.symm wn)
  have wp' : 0 < w' := lt_of_lt_of_le wp o
  have v1 : 0 ≤ w1 := win_pos hm hc1
  constructor
  · apply fl_mono (by positivity)
    exact div_le_div_of_nonneg_left (by positivity) wp o
  · apply fl_mono (by positivity)
    exact mul_le_mul_of_nonneg_left o2 (by positivity)

private theorem pow_close {x y : ℝ} (hx : 0 ≤ x) (x1 : x ≤ 1) (hy : 0 ≤ y) (y1 : y ≤ 1) (n : Nat) :
    |x ^ n - y ^ n| ≤ n * |x - y| := by
  induction n with
  | zero => simp
  | succ n ih =>
    have e : x ^ (n + 1) - y ^ (n + 1) = x * (x ^ n - y ^ n) + (x - y) * y ^ n := by ring
    rw [e]
    calc _ ≤ |x * (x ^ n - y ^ n)| + |(x - y) * y ^ n| := abs_add_le _ _
      _ = x * |x ^ n - y ^ n| + |x - y| * y ^ n := by
        rw [abs_mul, abs_mul, abs_of_nonneg hx, abs_of_nonneg (pow_nonneg hy n)]
      _ ≤ 1 * (n * |x - y|) + |x - y| * 1 := by
        apply add_le_add
        · exact mul_le_mul x1 ih (abs_nonneg _) (by norm_num)
        · exact mul_le_mul_of_nonneg_left (pow_le_one₀ hy y1) (abs_nonneg _)
      _ = ((n + 1 : Nat) : ℝ) * |x - y| := by push_cast; ring

private theorem pow_real {m : PowLib} (hm : GoodPow m) {x : ℚ} (x0 : 0 < x) (x1 : x ≤ 1) {y : ℝ} (y0 : 0 ≤ y) (y1 : y ≤ 1)
    (near : |(x : ℝ) - y| ≤ 2 / 10 ^ 14) (n : Nat) : |((m.pow x n : ℚ) : ℝ) - y ^ n| ≤ (n + 1) * (2 / 10 ^ 14) := by
  have pn : |((m.pow x n : ℚ) : ℝ) - (x : ℝ) ^ n| ≤ 1 / 2 ^ 52 + 1 / 2 ^ 1074 := by
    have h1 := hm.pow_near x n x0 x1
    have h2 : x ^ n / 2 ^ 52 ≤ 1 / 2 ^ 52 := by
      apply div_le_div_of_nonneg_right (pow_le_one₀ x0.le x1) (by positivity)
    have h3 : |m.pow x n - x ^ n| ≤ 1 / 2 ^ 52 + 1 / 2 ^ 1074 := by linarith
    have h4 : ((|m.pow x n - x ^ n| : ℚ) : ℝ) ≤ ((1 / 2 ^ 52 + 1 / 2 ^ 1074 : ℚ) : ℝ) := Rat.cast_le.2 h3
    push_cast at h4
    exact h4
  have small : (1 : ℝ) / 2 ^ 52 + 1 / 2 ^ 1074 ≤ 2 / 10 ^ 14 := by
    have : (1 : ℝ) / 2 ^ 1074 ≤ 1 / 2 ^ 52 := one_div_le_one_div_of_le (by positivity) (pow_le_pow_right₀ (by norm_num) (by norm_num))
    norm_num at this ⊢
    linarith
  have pc := pow_close (x := (x : ℝ)) (y := y) (by exact_mod_cast x0.le) (by exact_mod_cast x1) y0 y1 n
  have tri : |((m.pow x n : ℚ) : ℝ) - y ^ n| ≤ |((m.pow x n : ℚ) : ℝ) - (x : ℝ) ^ n| + |(x : ℝ) ^ n - y ^ n| := abs_sub_le _ _ _
  have rn : (n : ℝ) * |(x : ℝ) - y| ≤ n * (2 / 10 ^ 14) := mul_le_mul_of_nonneg_left near (Nat.cast_nonneg n)
  have : ((n : ℝ) + 1) * (2 / 10 ^ 14) = n * (2 / 10 ^ 14) + 2 / 10 ^ 14 := by ring
  rw [this]
  linarith

private theorem compl_near {u : ℚ} {y : ℝ} (u0 : 0 ≤ 1 - u) (u1 : 0 ≤ u) (h : |(u : ℝ) - y| ≤ 1 / 10 ^ 14) :
    |((fl (1 - u) : ℚ) : ℝ) - (1 - y)| ≤ 2 / 10 ^ 14 := by
  have e := fl_err' (x := 1 - u) u0
  have e' : |((fl (1 - u) : ℚ) : ℝ) - (1 - u)| ≤ 1 / 2 ^ 53 := by
    have : |fl (1 - u) - (1 - u)| ≤ 1 / 2 ^ 53 := le_trans e (by
      apply div_le_div_of_nonneg_right (by linarith) (by positivity))
    have := (Rat.cast_le (K := ℝ)).2 this
    push_cast at this
    exact this
  have t := abs_le.1 h
  have t' := abs_le.1 e'
  rw [abs_le]
  norm_num at t t' ⊢
  constructor <;> linarith

/-- What is computed are powers and products of numbers near the chances in one match. -/
private theorem chance_parts {m : PowLib} (hm : GoodPow m) {player average w c : ℚ} {r len : Nat} (h1 : 1 ≤ r)
    (h : Flt.tourneyChance m player average r len = .ok (w, c)) :
    ∃ x y : ℚ, 0 < x ∧ x ≤ 1 ∧ 0 ≤ y ∧ y ≤ 1 ∧ w = m.pow x r ∧ c = fl (m.pow x (r - 1 : Nat) * y) ∧
      |(x : ℝ) - chance player average len| ≤ 2 / 10 ^ 14 ∧ |(y : ℝ) - chance average player len| ≤ 2 / 10 ^ 14 := by
  have e2 : ((r : Int) - 1) = ((r - 1 : Nat) : Int) := by omega
  have cc := chance_compl (player : ℝ) average len
  unfold Flt.tourneyChance at h
  rw [e2] at h
  split at h
  · split at h
    · cases h
    · next u hu =>
      obtain ⟨c1, c2, _⟩ := C112_chances m.toMathLib hm.good player average len u hu
      have c0 := C112_near m.toMathLib hm.good player average len u hu
      have e := Except.ok.inj h
      simp only [Prod.mk.injEq] at e
      refine ⟨fl (1 - u), u, fl_gt (by linarith), ?_, c1.le, by linarith, e.1.symm, e.2.symm, ?_, ?_⟩
      · have := fl_mono (x := 1 - u) (y := 1) (by linarith) (by linarith)
        rwa [fl_one] at this
      · have := compl_near (y := chance average player len) (by linarith) c1.le c0
        rwa [show (1 : ℝ) - chance average player len = chance player average len by linarith] at this
      · exact le_trans c0 (by norm_num)
  · split at h
    · cases h
    · next u hu =>
      obtain ⟨c1, c2, _⟩ := C112_chances m.toMathLib hm.good average player len u hu
      have c0 := C112_near m.toMathLib hm.good average player len u hu
      have e := Except.ok.inj h
      simp only [Prod.mk.injEq] at e
      refine ⟨u, fl (1 - u), c1, by linarith, fl_nonneg (by linarith), ?_, e.1.symm, e.2.symm, ?_, ?_⟩
      · have := fl_mono (x := 1 - u) (y := 1) (by linarith) (by linarith)
        rwa [fl_one] at this
      · exact le_trans c0 (by norm_num)
      · have := compl_near (y := chance player average len) (by linarith) c1.le c0
        rwa [show (1 : ℝ) - chance player average len = chance average player len by linarith] at this

/-- **C116**: the computed chances to win the tournament and to be second are the exact ones but for 2 · 10⁻¹⁴ for each round and
once or twice more. -/
theorem C116_near (m : PowLib) (hm : GoodPow m) (player average : ℚ) (r len : Nat) (h1 : 1 ≤ r) (w c : ℚ)
    (h : Flt.tourneyChance m player average r len = .ok (w, c)) :
    ∃ w' c' : ℝ, tourneyChance (player : ℝ) average r len = .ok (w', c') ∧ |(w : ℝ) - w'| ≤ (r + 1) * (2 / 10 ^ 14) ∧
      |(c : ℝ) - c'| ≤ (r + 2) * (2 / 10 ^ 14) := by
  obtain ⟨x, y, x0, x1, y0, y1, rfl, rfl, nx, ny⟩ := chance_parts hm h1 h
  refine ⟨_, _, tourney_eq _ _ _ _ (Nat.cast_nonneg len), ?_, ?_⟩
  · rw [zpow_natCast]
    exact pow_real hm x0 x1 (chance_pos _ _ _).le (chance_lt_one _ _ _).le nx r
  · rw [show ((r : Int) - 1) = ((r - 1 : Nat) : Int) by omega, zpow_natCast]
    have hr : ((r - 1 : Nat) : ℝ) = r - 1 := by rw [Nat.cast_sub h1]; simp
    have pr := pow_real hm x0 x1 (chance_pos _ _ _).le (chance_lt_one _ _ _).le nx (r - 1)
    rw [hr] at pr
    have p0 := hm.pow_nonneg x (r - 1) x0
    have p2 : m.pow x (r - 1 : Nat) ≤ 2 := by
      have a := (abs_le.1 (hm.pow_near x (r - 1) x0 x1)).2
      have b : x ^ (r - 1) ≤ 1 := pow_le_one₀ x0.le x1
      have c : (1 : ℚ) / 2 ^ 1074 ≤ 1 / 2 ^ 52 := one_div_le_one_div_of_le (by positivity) (pow_le_pow_right₀ (by norm_num) (by norm_num))
      have d : x ^ (r - 1) / 2 ^ 52 ≤ 1 / 2 ^ 52 := div_le_div_of_nonneg_right b (by positivity)
      norm_num at a b c d ⊢
      linarith
    generalize m.pow x ((r - 1 : Nat) : Int) = P at pr p0 p2 ⊢
    have X1 : chance (player : ℝ) average len ^ (r - 1) ≤ 1 := pow_le_one₀ (chance_pos _ _ _).le (chance_lt_one _ _ _).le
    have X0 : 0 ≤ chance (player : ℝ) average len ^ (r - 1) := pow_nonneg (chance_pos _ _ _).le _
    generalize chance (player : ℝ) average len ^ (r - 1) = X at pr X0 X1 ⊢
    generalize chance (average : ℝ) player len = Y at ny ⊢
    have er : |((fl (P * y) : ℚ) : ℝ) - P * y| ≤ 2 / 2 ^ 53 := by
      have e := fl_err' (x := P * y) (mul_nonneg p0 y0)
      have : |fl (P * y) - P * y| ≤ 2 / 2 ^ 53 := le_trans e (by
        apply div_le_div_of_nonneg_right _ (by positivity)
        calc P * y ≤ 2 * 1 := mul_le_mul p2 y1 y0 (by norm_num)
          _ = 2 := by norm_num)
      have := (Rat.cast_le (K := ℝ)).2 this
      push_cast at this
      exact this
    have y0' : (0 : ℝ) ≤ y := by exact_mod_cast y0
    have y1' : (y : ℝ) ≤ 1 := by exact_mod_cast y1
    have mid : |(P : ℝ) * y - X * Y| ≤ r * (2 / 10 ^ 14) + 2 / 10 ^ 14 := by
      have e : (P : ℝ) * y - X * Y = ((P : ℝ) - X) * y + X * ((y : ℝ) - Y) := by ring
      rw [e]
      calc _ ≤ |((P : ℝ) - X) * y| + |X * ((y : ℝ) - Y)| := abs_add_le _ _
        _ = |(P : ℝ) - X| * y + X * |(y : ℝ) - Y| := by rw [abs_mul, abs_mul, abs_of_nonneg y0', abs_of_nonneg X0]
        _ ≤ |(P : ℝ) - X| * 1 + 1 * |(y : ℝ) - Y| :=
          add_le_add (mul_le_mul_of_nonneg_left y1' (abs_nonneg _)) (mul_le_mul_of_nonneg_right X1 (abs_nonneg _))
        _ ≤ r * (2 / 10 ^ 14) + 2 / 10 ^ 14 := by
          rw [mul_one, one_mul]
          refine add_le_add (le_trans pr (le_of_eq ?_)) ny
          ring
    have tri : |((fl (P * y) : ℚ) : ℝ) - X * Y| ≤ |((fl (P * y) : ℚ) : ℝ) - P * y| + |(P : ℝ) * y - X * Y| := abs_sub_le _ _ _
    have s : (2 : ℝ) / 2 ^ 53 ≤ 2 / 10 ^ 14 := by norm_num
    have : ((r : ℝ) + 2) * (2 / 10 ^ 14) = r * (2 / 10 ^ 14) + 2 / 10 ^ 14 + 2 / 10 ^ 14 := by ring
    rw [this]
    linarith

private theorem pow_gt {m : PowLib} (hm : GoodPow m) {x : ℚ} (hx : 1 / 1024 ≤ x) (x1 : x ≤ 1) {n : Nat} (hn : n ≤ 100) :
    0 < m.pow x n := by
  have x0 : 0 < x := by linarith
  have h := (abs_le.1 (hm.pow_near x n x0 x1)).1
  have a : (1 : ℚ) / 2 ^ 1000 ≤ x ^ n := by
    have h1 : ((1 : ℚ) / 1024) ^ n ≤ x ^ n := pow_le_pow_left₀ (by norm_num) hx n
    have h2 : ((1 : ℚ) / 1024) ^ 100 ≤ (1 / 1024) ^ n := pow_le_pow_of_le_one (by norm_num) (by norm_num) hn
    have h3 : ((1 : ℚ) / 1024) ^ 100 = 1 / 2 ^ 1000 := by
      rw [show (1024 : ℚ) = 2 ^ 10 by norm_num, one_div_pow, ← pow_mul]
    linarith
  have b : (1 : ℚ) / 2 ^ 1074 = 1 / 2 ^ 1000 * (1 / 2 ^ 74) := by
    rw [one_div_mul_one_div, ← pow_add]
  have p : (0 : ℚ) < 1 / 2 ^ 1000 := by positivity
  have q : x ^ n / 2 ^ 52 ≤ x ^ n * (1 / 4) := by
    rw [div_eq_mul_one_div]
    exact mul_le_mul_of_nonneg_left (by norm_num) (by positivity)
  have q2 : (1 : ℚ) / 2 ^ 1000 * (1 / 2 ^ 74) ≤ 1 / 2 ^ 1000 * (1 / 4) :=
    mul_le_mul_of_nonneg_left (by norm_num) p.le
  rw [b] at h
  linarith

private theorem upset_fair {m : MathLib} (hm : GoodLib m) {high low : ℚ} {len : Nat} (h : low ≤ high)
    (hd : ((high : ℝ) - low) * Real.sqrt len ≤ 6000) : ∃ u, Flt.upsetChance m high low len = .ok u ∧ 1 / 1024 ≤ u := by
  obtain ⟨u, hu⟩ := C112_computed m hm high low len h (by linarith)
  refine ⟨u, hu, ?_⟩
  have n := (abs_le.1 (C112_near m hm high low len u hu)).1
  have c : (1 : ℝ) / 1001 ≤ chance low high len := by
    unfold chance
    apply one_div_le_one_div_of_le (by positivity)
    have : (10 : ℝ) ^ (((high : ℝ) - low) * Real.sqrt len / 2000) ≤ 10 ^ (3 : ℝ) :=
      Real.rpow_le_rpow_of_exponent_le (by norm_num) (by linarith)
    have t : (10 : ℝ) ^ (3 : ℝ) = 1000 := by
      rw [show (3 : ℝ) = ((3 : Nat) : ℝ) by norm_num, Real.rpow_natCast]; norm_num
    linarith
  have : ((1 / 1024 : ℚ) : ℝ) ≤ (u : ℝ) := by
    norm_num at n c ⊢
    linarith
  exact_mod_cast this

/-- **C116**: for ratings that are not too different and up to 100 rounds all handicaps can be computed. -/
theorem C116_computed (m : PowLib) (hm : GoodPow m) (player average : ℚ) (r len : Nat) (h1 : 1 ≤ r) (h2 : r ≤ 100)
    (hd : |(player : ℝ) - average| * Real.sqrt len ≤ 6000) (winner runnerup fee : ℚ) :
    ∃ p q pf, Flt.prizeHandicap m player average r len winner runnerup = .ok (p, q) ∧
      Flt.entryfeeHandicap m player average r len fee = .ok pf := by
  have e2 : ((r : Int) - 1) = ((r - 1 : Nat) : Int) := by omega
  obtain ⟨w, c, hc, wp, cp⟩ : ∃ w c, Flt.tourneyChance m player average r len = .ok (w, c) ∧ 0 < w ∧ 0 < c := by
    unfold Flt.tourneyChance
    rw [e2]
    by_cases g : player ≥ average
    · have g' : (average : ℝ) ≤ player := by exact_mod_cast g
      obtain ⟨u, hu, u0⟩ := upset_fair hm.good (len := len) g (by
        rwa [abs_of_nonneg (by linarith)] at hd)
      obtain ⟨c1, c2, _⟩ := C112_chances m.toMathLib hm.good player average len u hu
      have b : 1 / 2 ≤ fl (1 - u) := by
        have := fl_mono (x := 1 / 2) (y := 1 - u) (by norm_num) (by linarith)
        rwa [fl_half] at this
      have b1 : fl (1 - u) ≤ 1 := by
        have := fl_mono (x := 1 - u) (y := 1) (by linarith) (by linarith)
        rwa [fl_one] at this
      rw [if_pos g, hu]
      exact ⟨_, _, rfl, pow_gt hm (by linarith) b1 h2, fl_gt (mul_pos (pow_gt hm (by linarith) b1 (by omega)) c1)⟩
    · have g' : (player : ℝ) ≤ average := by exact_mod_cast (not_le.1 g).le
      obtain ⟨u, hu, u0⟩ := upset_fair hm.good (len := len) (not_le.1 g).le (by
        rwa [abs_of_nonpos (by linarith), neg_sub] at hd)
      obtain ⟨c1, c2, _⟩ := C112_chances m.toMathLib hm.good average player len u hu
      rw [if_neg g, hu]
      exact ⟨_, _, rfl, pow_gt hm u0 (by linarith) h2,
        fl_gt (mul_pos (pow_gt hm u0 (by linarith) (by omega)) (fl_gt (by linarith)))⟩
  have hp : ((1 : ℚ) / 2) ^ r ≠ 0 := by positivity
  unfold Flt.prizeHandicap Flt.entryfeeHandicap quotient
  simp only [even_chance hm average r len h1 (by omega), hc, bind, Except.bind, pure, Except.pure, hp, wp.ne', cp.ne', if_false]
  exact ⟨_, _, _, rfl, rfl⟩

/-- **C116 is false of the code** in the extreme: with more than 1075 rounds the chances of the average are zero as
computed, and the handicaps divide by them; the exact formulas have values. -/
theorem C116_false_rounds (m : PowLib) (hm : GoodPow m) (player average : ℚ) (r len : Nat) (hr : 1075 < r) (winner runnerup fee : ℚ) :
    Flt.prizeHandicap m average average r len winner runnerup = .error .zeroDivision ∧
      Flt.entryfeeHandicap m player average r len fee = .error .zeroDivision ∧
      ∃ pf : ℝ, entryfeeHandicap (player : ℝ) average r len fee = .ok pf := by
  have small : ((1 : ℚ) / 2) ^ r < 1 / 2 ^ 1075 := by
    rw [one_div_pow]
    exact one_div_lt_one_div_of_lt (by positivity) (pow_lt_pow_right₀ (by norm_num) hr)
  have e : (1 : ℚ) - 1 / 2 = 1 / 2 := by norm_num
  obtain ⟨c, hc⟩ : ∃ c, Flt.tourneyChance m average average r len = .ok (0, c) := by
    unfold Flt.tourneyChance
    rw [if_pos (le_refl _), even_upset hm.good]
    simp only [e, fl_half]
    rw [hm.pow_small (1 / 2) r (by norm_num) small]
    exact ⟨_, rfl⟩
  refine ⟨?_, ?_, ?_⟩
  · unfold Flt.prizeHandicap quotient
    simp only [hc, bind, Except.bind, if_true]
  · unfold Flt.entryfeeHandicap quotient
    simp only [hc, bind, Except.bind, if_true]
  · obtain ⟨_, _, _, _, pf, _, _, h, _⟩ := C29_fee (player : ℝ) average len fee r (Nat.cast_nonneg len)
    exact ⟨pf, h⟩

/-- **C116**: there are libraries as assumed: the ones of C112, with powers rounded to the nearest. -/
theorem C116_lib : ∃ m, GoodPow m := by
  obtain ⟨m, hm⟩ := C112_lib
  refine ⟨⟨m, fun x n => if x ^ n < 1 / 2 ^ 1075 then 0 else fl (x ^ n)⟩, hm, ?_, ?_, ?_, ?_, ?_⟩
  · intro x n hx
    simp only [zpow_natCast]
    split
    · exact le_refl _
    · exact fl_nonneg (by positivity)
  · intro x y n hx hxy _
    simp only [zpow_natCast]
    have hp : x ^ n ≤ y ^ n := pow_le_pow_left₀ hx.le hxy n
    by_cases h : x ^ n < 1 / 2 ^ 1075
    · rw [if_pos h]
      split
      · exact le_refl _
      · exact fl_nonneg (pow_nonneg (by linarith) n)
    · rw [if_neg h, if_neg (fun k => h (lt_of_le_of_lt hp k))]
      exact fl_mono (by positivity) hp
  · intro n hn
    simp only [zpow_natCast]
    rw [if_neg, half_pow]
    rw [not_lt, one_div_pow]
    exact one_div_le_one_div_of_le (by positivity) (pow_le_pow_right₀ (by norm_num) (by omega))
  · intro x n hx _
    simp only [zpow_natCast]
    have hp : 0 < x ^ n := by positivity
    split
    · next h =>
      rw [zero_sub, abs_neg, abs_of_pos hp]
      have h3 : (1 : ℚ) / 2 ^ 1075 ≤ 1 / 2 ^ 1074 :=
        one_div_le_one_div_of_le (by positivity) (pow_le_pow_right₀ (by norm_num) (by norm_num))
      have h4 : 0 ≤ x ^ n / 2 ^ 52 := by positivity
      linarith
    · have h1 := fl_err' hp.le
      have h2 : x ^ n / 2 ^ 53 ≤ x ^ n / 2 ^ 52 := by
        apply div_le_div_of_nonneg_left hp.le (by positivity) (by norm_num)
      have h3 : (0 : ℚ) ≤ 1 / 2 ^ 1074 := by positivity
      linarith
  · intro x n hx h
    simp only [zpow_natCast]
    rw [if_pos h]

/-- The docstring examples tourney.py:31-32 and 50-51, as computed. -/
example (m : PowLib) (hm : GoodPow m) : Flt.prizeHandicap m 1000 1000 4 7 100 30 = .ok (100, 30) ∧
    Flt.entryfeeHandicap m 1000 1000 4 7 100 = .ok 100 := by
  have f : ∀ n : Int, 0 < n → n < 2 ^ 53 → IsFloat n := fun n h0 h => fl_int h0 h
  have h := C116_average m hm 1000 4 7 (by norm_num) (by norm_num) 100 30 100
    (by simpa using f 100 (by norm_num) (by norm_num)) (by simpa using f 30 (by norm_num) (by norm_num))
    (by simpa using f 100 (by norm_num) (by norm_num))
  simpa using h

/-- C116_fair, C116_handicap and C116_computed have instances: players stronger and weaker than the average. -/
example (m : PowLib) (hm : GoodPow m) : (∃ p q pf, Flt.prizeHandicap m 1100 1000 4 7 100 30 = .ok (p, q) ∧
      Flt.entryfeeHandicap m 1100 1000 4 7 100 = .ok pf) ∧
    ∃ p q pf, Flt.prizeHandicap m 900 1000 4 7 100 30 = .ok (p, q) ∧ Flt.entryfeeHandicap m 900 1000 4 7 100 = .ok pf := by
  have s : Real.sqrt ((7 : Nat) : ℝ) ≤ 3 := by
    rw [Real.sqrt_le_left (by norm_num)]
    norm_num
  have a := C116_computed m hm 1100 1000 4 7 (by norm_num) (by norm_num) (by
    rw [show |((1100 : ℚ) : ℝ) - ((1000 : ℚ) : ℝ)| = 100 by norm_num]; linarith) 100 30 100
  have b := C116_computed m hm 900 1000 4 7 (by norm_num) (by norm_num) (by
    rw [show |((900 : ℚ) : ℝ) - ((1000 : ℚ) : ℝ)| = 100 by norm_num]; linarith) 100 30 100
  exact ⟨by simpa using a, by simpa using b⟩

end Bglib
