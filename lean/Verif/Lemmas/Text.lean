import Verif.Model.Text
namespace Bglib

theorem digitVal_digitChar {d : Nat} (h : d < 10) : digitVal (digitChar d) = some d := by
  have : ∀ d < 10, digitVal (digitChar d) = some d := by decide
  exact this d h

theorem isSpace_digitChar {d : Nat} (h : d < 10) : isSpace (digitChar d) = false := by
  have : ∀ d < 10, isSpace (digitChar d) = false := by decide
  exact this d h

theorem readDigits_append {acc : Nat} {seen : Bool} {l : Text} {n d : Nat} (hd : d < 10)
    (h : readDigits acc seen l = (n, true, [])) (rest : Text) :
    readDigits acc seen (l ++ digitChar d :: rest) = readDigits (n * 10 + d) true rest := by
  induction l generalizing acc seen with
  | nil =>
    simp [readDigits] at h
    simp [readDigits, digitVal_digitChar hd, h]
  | cons c cs ih =>
    simp only [readDigits, List.cons_append] at h ⊢
    cases hc : digitVal c with
    | some x => rw [hc] at h; simp only [] at h ⊢; exact ih h
    | none => rw [hc] at h; simp at h

theorem readDigits_decimalAux {f n : Nat} (h : n < f) :
    readDigits 0 false (decimalAux f n) = (n, true, []) := by
  induction f generalizing n with
  | zero => omega
  | succ f ih =>
    unfold decimalAux
    split
    · next hn => simp [readDigits, digitVal_digitChar hn]
    · next hn =>
      have := readDigits_append (d := n % 10) (by omega) (ih (n := n / 10) (by omega)) []
      rw [this]
      simp [readDigits]; omega

/-- Every character of a printed natural number is a digit. -/
theorem decimalAux_digits {f n : Nat} {c : Char} (h : c ∈ decimalAux f n) :
    ∃ d < 10, c = digitChar d := by
  induction f generalizing n with
  | zero => simp [decimalAux] at h
  | succ f ih =>
    unfold decimalAux at h
    split at h
    · simp at h; exact ⟨n, by omega, h⟩
    · simp at h
      rcases h with h | h
      · exact ih h
      · exact ⟨n % 10, by omega, h⟩

theorem decimal_digits {n : Nat} {c : Char} (h : c ∈ decimal n) : ∃ d < 10, c = digitChar d :=
  decimalAux_digits h

theorem decimal_ne_nil (n : Nat) : decimal n ≠ [] := by
  unfold decimal decimalAux; split <;> simp

theorem readNat_decimal (n : Nat) : readNat (decimal n) = some n := by
  unfold readNat decimal
  rw [readDigits_decimalAux (by omega)]
  simp

theorem dropWhile_decimal (n : Nat) : (decimal n).dropWhile isSpace = decimal n := by
  have h := decimal_ne_nil n
  cases hd : decimal n with
  | nil => exact absurd hd h
  | cons c cs =>
    obtain ⟨d, hd', rfl⟩ := decimal_digits (n := n) (c := c) (by rw [hd]; simp)
    simp [List.dropWhile, isSpace_digitChar hd']

theorem pyInt_decimal (n : Nat) : pyInt (decimal n) = some (n : Int) := by
  unfold pyInt
  rw [dropWhile_decimal]
  split
  · next r h =>
    obtain ⟨d, hd, e⟩ := decimal_digits (n := n) (c := '-') (by rw [h]; simp)
    have : ∀ d < 10, '-' ≠ digitChar d := by decide
    exact absurd e (this d hd)
  · next r h =>
    obtain ⟨d, hd, e⟩ := decimal_digits (n := n) (c := '+') (by rw [h]; simp)
    have : ∀ d < 10, '+' ≠ digitChar d := by decide
    exact absurd e (this d hd)
  · rw [readNat_decimal]; rfl

/-- `int(str(n)) == n` for every integer. -/
theorem pyInt_pyStr (n : Int) : pyInt (pyStr n) = some n := by
  unfold pyStr
  split
  · next h =>
    unfold pyInt
    have : isSpace '-' = false := by decide
    simp [List.dropWhile, this, dropWhile_decimal, readNat_decimal]
    omega
  · rw [pyInt_decimal]; congr 1; omega

theorem pyStr_nat (n : Nat) : pyStr (n : Int) = decimal n := by
  unfold pyStr; simp

theorem decimal_inj {m n : Nat} (h : decimal m = decimal n) : m = n := by
  have := readNat_decimal m
  rw [h, readNat_decimal] at this
  exact (Option.some.inj this).symm

theorem pyStr_inj {m n : Int} (h : pyStr m = pyStr n) : m = n := by
  have := pyInt_pyStr m
  rw [h, pyInt_pyStr] at this
  exact (Option.some.inj this).symm

end Bglib
