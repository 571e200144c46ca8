import Verif.Spec.AnalysisTable
import Verif.Lemmas.Split
import Verif.Lemmas.Text
/-
C83: the tables of an analysis show the numbers of the analysis.
-/
namespace Bglib
open Spec Doc

/-! ### Numbers -/

private theorem round_within (a d : Nat) (hd : 0 < d) :
    2 * a ≤ 2 * (roundEven a d * d) + d ∧ 2 * (roundEven a d * d) ≤ 2 * a + d ∧
      (2 * a = 2 * (roundEven a d * d) + d ∨ 2 * (roundEven a d * d) = 2 * a + d → roundEven a d % 2 = 0) := by
  have h := Nat.div_add_mod a d
  have hr := Nat.mod_lt a hd
  rw [Nat.mul_comm] at h
  have e : (a / d + 1) * d = a / d * d + d := Nat.succ_mul _ _
  unfold roundEven
  simp only []
  repeat' split
  all_goals (first | rw [e] | skip)
  all_goals omega

private theorem round_unique (a d n : Nat) (h1 : 2 * a < 2 * (n * d) + d) (h2 : 2 * (n * d) < 2 * a + d) :
    roundEven a d = n := by
  have hd : 0 < d := by
    rcases Nat.eq_zero_or_pos d with rfl | h
    · simp at h1 h2
    · exact h
  obtain ⟨g1, g2, -⟩ := round_within a d hd
  generalize roundEven a d = m at g1 g2
  rcases Nat.lt_trichotomy m n with h | h | h
  · have := Nat.mul_le_mul_right d h
    have e : (m + 1) * d = m * d + d := Nat.succ_mul _ _
    rw [Nat.succ_eq_add_one, e] at this
    omega
  · exact h
  · have := Nat.mul_le_mul_right d h
    have e : (n + 1) * d = n * d + d := Nat.succ_mul _ _
    rw [Nat.succ_eq_add_one, e] at this
    omega

private theorem round_mono (a a' d : Nat) (h : a ≤ a') : roundEven a d ≤ roundEven a' d := by
  unfold roundEven
  simp only []
  have hq : a / d ≤ a' / d := Nat.div_le_div_right h
  have h1 := Nat.div_add_mod a d
  have h2 := Nat.div_add_mod a' d
  rcases Nat.eq_or_lt_of_le hq with e | hlt
  · rw [e] at h1 ⊢
    have : a % d ≤ a' % d := by omega
    repeat' split
    all_goals omega
  · repeat' split
    all_goals omega

private theorem digit_char (d : Nat) (h : d < 10) :
    ('0' ≤ digitChar d ∧ digitChar d ≤ '9') ∧ (digitChar d).toNat - 48 = d := by
  have : ∀ d < 10, ('0' ≤ digitChar d ∧ digitChar d ≤ '9') ∧ (digitChar d).toNat - 48 = d := by decide
  exact this d h

private theorem numeral_append (s t : Text) (acc n : Nat) (h : numeral acc s = some n) :
    numeral acc (s ++ t) = numeral n t := by
  induction s generalizing acc with
  | nil => rw [numeral] at h; rw [Option.some.inj h]; rfl
  | cons c s ih =>
    rw [List.cons_append, numeral]
    rw [numeral] at h
    split at h
    · rw [if_pos ‹_›]; exact ih _ h
    · cases h

private theorem numeral_snoc (s : Text) (n d : Nat) (hd : d < 10) (h : numeral 0 s = some n) :
    numeral 0 (s ++ [digitChar d]) = some (10 * n + d) := by
  obtain ⟨h1, h2⟩ := digit_char d hd
  rw [numeral_append _ _ _ _ h, numeral, if_pos h1, h2, numeral]

private theorem numeral_decimalAux (f n : Nat) (h : n < f) : numeral 0 (decimalAux f n) = some n := by
  induction f generalizing n with
  | zero => omega
  | succ f ih =>
    rw [decimalAux]
    split
    · rename_i hn
      have := numeral_snoc [] 0 n hn rfl
      rwa [List.nil_append, Nat.mul_zero, Nat.zero_add] at this
    · rw [numeral_snoc _ (n / 10) (n % 10) (by omega) (ih _ (by omega))]
      congr 1; omega

private theorem numeral_last (k n : Nat) (s : Text) (h : numeral 0 s = some (n / 10 ^ k)) :
    numeral 0 (s ++ lastDigits k n) = some n := by
  induction k generalizing n with
  | zero => rw [lastDigits, List.append_nil, h, Nat.pow_zero, Nat.div_one]
  | succ k ih =>
    rw [lastDigits, ← List.append_assoc, numeral_snoc _ (n / 10) (n % 10) (by omega) (ih (n / 10) (by
      rw [h, Nat.div_div_eq_div_mul, Nat.pow_succ, Nat.mul_comm]))]
    congr 1; omega

private theorem last_length (k n : Nat) : (lastDigits k n).length = k := by
  induction k generalizing n with
  | zero => rfl
  | succ k ih => rw [lastDigits, List.length_append, ih]; rfl

private theorem last_digits (k n : Nat) : '.' ∉ lastDigits k n := by
  have hd : ∀ d < 10, '.' ≠ digitChar d := by decide
  induction k generalizing n with
  | zero => simp [lastDigits]
  | succ k ih =>
    rw [lastDigits, List.mem_append, not_or]
    exact ⟨ih _, by rw [List.mem_singleton]; exact hd _ (Nat.mod_lt _ (by decide))⟩

private theorem decimal_point (n : Nat) : '.' ∉ decimal n := by
  intro h
  obtain ⟨d, hd, e⟩ := decimal_digits h
  have : ∀ d < 10, '.' ≠ digitChar d := by decide
  exact this d hd e

private theorem read_point (k n : Nat) : readPoint (pointText k n) = some (n, k) := by
  unfold readPoint pointText
  rw [splitChar_append _ _ _ (decimal_point _), splitChar_none _ _ (last_digits _ _)]
  show (if decimal (n / 10 ^ k) = [] then none else _) = _
  rw [if_neg (decimal_ne_nil _), numeral_last k n (decimal _) (numeral_decimalAux _ _ (by omega)), last_length]
  rfl

private theorem pointText_head (k n : Nat) : ∀ c r, pointText k n = c :: r → c ≠ '-' ∧ c ≠ '+' := by
  intro c r h
  unfold pointText at h
  cases hd : decimal (n / 10 ^ k) with
  | nil => exact absurd hd (decimal_ne_nil _)
  | cons x xs =>
    rw [hd] at h
    have hx : x ∈ decimal (n / 10 ^ k) := by rw [hd]; simp
    obtain ⟨d, hlt, e⟩ := decimal_digits hx
    have hc : c = x := (List.cons.inj h).1.symm
    have : ∀ d < 10, digitChar d ≠ '-' ∧ digitChar d ≠ '+' := by decide
    rw [hc, e]; exact this d hlt

/-- **C83** An equity is shown with its sign and three digits after the point; the number shown is within 0.0005 of
the equity, with an even last digit when two such numbers are equally near. -/
theorem C83_equity (f : Flt) (hd : 0 < f.den) :
    ∃ n, readSigned (signedOneThree f) = some (f.neg, n, 3) ∧ HalfUnit f n 1000 := by
  refine ⟨roundEven (f.num * 1000) f.den, ?_, round_within _ _ hd⟩
  unfold signedOneThree
  cases f.neg
  · show (readPoint _).map _ = _
    rw [read_point]; rfl
  · show (readPoint _).map _ = _
    rw [read_point]; rfl

/-- **C83** A chance is shown with one digit after the point, within 0.05 of its value, the even one of two equally near. -/
theorem C83_chance (f : Flt) (hd : 0 < f.den) :
    ∃ n, readSigned (percentTwoOne f) = some (f.neg, n, 1) ∧ HalfUnit f n 10 := by
  refine ⟨roundEven (f.num * 10) f.den, ?_, round_within _ _ hd⟩
  unfold percentTwoOne
  cases f.neg
  · show readSigned ([] ++ _) = _
    rw [List.nil_append]
    have hh := pointText_head 1 (roundEven (f.num * 10) f.den)
    have hr := read_point 1 (roundEven (f.num * 10) f.den)
    unfold readSigned
    split
    · rename_i u e; exact absurd rfl (hh _ _ e).1
    · rename_i u e; exact absurd rfl (hh _ _ e).2
    · rw [hr]; rfl
  · show (readPoint (pointText _ _)).map _ = _
    rw [read_point]; rfl

/-- **C83** A number given with three digits after the point is shown with these digits: the float nearest to it is
well within half a unit. -/
theorem C83_shown (f : Flt) (n : Nat) (h1 : 2 * (f.num * 1000) < 2 * (n * f.den) + f.den)
    (h2 : 2 * (n * f.den) < 2 * (f.num * 1000) + f.den) :
    readSigned (signedOneThree f) = some (f.neg, n, 3) := by
  have hd : 0 < f.den := by
    rcases Nat.eq_zero_or_pos f.den with h | h
    · rw [h] at h1 h2; omega
    · exact h
  unfold signedOneThree
  rw [round_unique _ _ n h1 h2]
  cases f.neg
  · show (readPoint _).map _ = _
    rw [read_point]; rfl
  · show (readPoint _).map _ = _
    rw [read_point]; rfl

/-- The float 0.236 is 1062849512059437 / 2^52. -/
example : signedOneThree ⟨false, 1062849512059437, 2 ^ 52⟩ = t!"+0.236" ∧
    2 * (1062849512059437 * 1000) < 2 * (236 * 2 ^ 52) + 2 ^ 52 ∧
    2 * (236 * 2 ^ 52) < 2 * (1062849512059437 * 1000) + 2 ^ 52 := by decide +kernel

/-- **C83** The order of equities is the order shown (of equities of the same sign, over a common denominator). -/
theorem C83_order (a b d : Nat) (h : a ≤ b) (s : Bool) : ∃ m n,
    readSigned (signedOneThree ⟨s, a, d⟩) = some (s, m, 3) ∧
    readSigned (signedOneThree ⟨s, b, d⟩) = some (s, n, 3) ∧ m ≤ n := by
  refine ⟨roundEven (a * 1000) d, roundEven (b * 1000) d, ?_, ?_, round_mono _ _ _ (by omega)⟩ <;>
  · unfold signedOneThree
    cases s
    · show (readPoint _).map _ = _
      rw [read_point]; rfl
    · show (readPoint _).map _ = _
      rw [read_point]; rfl

/-! ### Rows -/

/-- **C83** The row of a cube action: its name, its equity, and the difference, which is left out if it is zero or
not known.  The row is marked when it was the action taken. -/
theorem C83_cube_row (nth : Int) (k : Nat) (hk : k < 4) (equity : Flt) (diff : Option Flt) (actual : Bool) :
    ∃ name, cubeActionStrings[k]? = some name ∧
    cubeActionRow nth k equity diff (if actual then 1 else 0) = .ok
      (if actual then t!"actualrow" else if nth % 2 = 0 then t!"evenrow" else t!"oddrow",
        [name, signedOneThree equity, match diff with
          | some d => if d.num = 0 then [] else signedOneThree d
          | none => []]) := by
  have hs : ∀ k < 4, ∃ name, cubeActionStrings[k]? = some name ∧ cubeActionString (k : Nat) = .ok name := by
    decide +kernel
  obtain ⟨name, h1, h2⟩ := hs k hk
  refine ⟨name, h1, ?_⟩
  unfold cubeActionRow
  cases actual <;> cases diff <;> simp [h2, rowClass, Flt.isZero]

example : cubeActionRow 2 2 ⟨false, 236, 1000⟩ (some ⟨false, 764, 1000⟩) 0 =
    .ok (t!"evenrow", [t!"Double, pass", t!"+0.236", t!"+0.764"]) := by decide +kernel

/-- **C83** The row of a move: the move, the plies looked ahead, the equity with its difference in brackets (left
out if it is zero or not known), and the six chances in their order. -/
theorem C83_move_row (nth : Int) (move : Text) (ply : Int) (equity : Flt) (diff : Option Flt) (c : Chances)
    (actual : Bool) : moveListingRow nth move ply equity diff c actual =
      (if actual then t!"actualrow" else if nth % 2 = 0 then t!"evenrow" else t!"oddrow",
        [move, pyStr ply, signedOneThree equity ++ [' '] ++ (match diff with
          | some d => if d.num = 0 then [] else ['('] ++ signedOneThree d ++ [')', ' ']
          | none => []),
          percentTwoOne c.win, percentTwoOne c.winG, percentTwoOne c.winBg,
          percentTwoOne c.lose, percentTwoOne c.loseG, percentTwoOne c.loseBg]) := by
  unfold moveListingRow
  cases diff with
  | none => simp [rowClass, Chances.texts]
  | some d => by_cases h : d.num = 0 <;> simp [rowClass, Chances.texts, Flt.isZero, h]

example : (moveListingRow 2 t!"12/10" 2 ⟨false, 213, 1000⟩ (some ⟨true, 108, 1000⟩)
    ⟨⟨false, 562, 10⟩, ⟨false, 11, 1⟩, ⟨false, 3, 10⟩, ⟨false, 438, 10⟩, ⟨false, 4, 1⟩, ⟨false, 1, 10⟩⟩ false).2 =
    [t!"12/10", t!"2", t!"+0.213 (-0.108) ", t!"56.2", t!"11.0", t!"0.3", t!"43.8", t!"4.0", t!"0.1"] := by
  decide +kernel

/-- **C83** is false of the check of the action: the assertion looks at the wrong variable.  An action that does not
exist is an `IndexError` (not the `AssertionError` meant), an action counted from the end is taken for another
one, and a mark that is no truth value is accepted. -/
theorem C83_false_action :
    (∀ nth k e d, k < -4 ∨ 3 < k → cubeActionRow nth k e d 0 = .error .indexError) ∧
    (∀ nth k e d, -4 ≤ k → k < 0 → cubeActionRow nth k e d 0 = cubeActionRow nth (k + 4) e d 0) ∧
    (∀ nth e d, cubeActionRow nth 0 e d 2 = cubeActionRow nth 0 e d 1) ∧
    ∀ nth k e d, cubeActionRow nth k e d 4 = .error .assertion := by
  refine ⟨fun nth k e d h => ?_, fun nth k e d h h' => ?_, fun _ _ d => by cases d <;> rfl, fun _ _ _ _ => rfl⟩
  · have hs : cubeActionString k = .error .indexError := by
      unfold cubeActionString
      by_cases h0 : 0 ≤ k
      · rw [if_pos h0, List.getElem?_eq_none (by show 4 ≤ k.toNat; omega)]
      · rw [if_neg h0, if_neg (by omega)]
    unfold cubeActionRow
    rw [hs]; cases d <;> rfl
  · have hs : cubeActionString k = cubeActionString (k + 4) := by
      unfold cubeActionString
      rw [if_neg (by omega), if_pos h, if_pos (by omega)]
    unfold cubeActionRow
    rw [hs]

/-- **C83** is false of chances given as parts of one, as in the authors' data: chances of 0.519 and 0.481, to win
and to lose, look the same. -/
theorem C83_false_chances : ∃ f g : Flt, f.num * g.den ≠ g.num * f.den ∧
    f.num * 1000 = 519 * f.den ∧ g.num * 1000 = 481 * g.den ∧ percentTwoOne f = percentTwoOne g ∧
    percentTwoOne f = t!"0.5" := ⟨⟨false, 519, 1000⟩, ⟨false, 481, 1000⟩, by decide +kernel⟩

/-- **C83** is false of small differences: one that is not zero can be shown as `+0.000` or `-0.000`. -/
theorem C83_false_small : signedOneThree ⟨false, 4, 10000⟩ = t!"+0.000" ∧
    signedOneThree ⟨true, 4, 10000⟩ = t!"-0.000" ∧ (⟨true, 4, 10000⟩ : Flt).isZero = false := by decide +kernel

end Bglib
