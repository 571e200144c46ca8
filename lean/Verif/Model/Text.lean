import Verif.Py
/-
Text as lists of characters, and Python's integer printing and parsing.
-/
namespace Bglib

abbrev Text := List Char

/-- The decimal digit `d < 10`. -/
def digitChar (d : Nat) : Char := Char.ofNat (48 + d)

/-- Decimal digits with recursion bound. -/
def decimalAux : Nat → Nat → Text
  | 0, _ => []
  | f + 1, n => if n < 10 then [digitChar n] else decimalAux f (n / 10) ++ [digitChar (n % 10)]

/-- Python's `str(n)` for a natural number. -/
def decimal (n : Nat) : Text := decimalAux (n + 1) n

/-- Python's `str(n)` for an integer. -/
def pyStr (n : Int) : Text := if n < 0 then '-' :: decimal n.natAbs else decimal n.natAbs

/-- Value of an ASCII digit. -/
def digitVal (c : Char) : Option Nat := if '0' ≤ c ∧ c ≤ '9' then some (c.toNat - 48) else none

/-- C `isspace` in the C locale, used by `int()` and `str.strip`. -/
def isSpace (c : Char) : Bool :=
  c = ' ' || c = '\t' || c = '\n' || c = '\r' || c = '\x0b' || c = '\x0c'

/-- Digits read so far: accumulate until the first non-digit; return value, whether a digit was seen
and the rest. -/
def readDigits (acc : Nat) (seen : Bool) : Text → Nat × Bool × Text
  | [] => (acc, seen, [])
  | c :: cs => match digitVal c with
    | some d => readDigits (acc * 10 + d) true cs
    | none => (acc, seen, c :: cs)

/-- Unsigned part of `int(s)`: digits, then only white space. -/
def readNat (s : Text) : Option Nat :=
  match readDigits 0 false s with
  | (n, true, rest) => if rest.all isSpace then some n else none
  | (_, false, _) => none

/-- Python 2 `int(s)` for a byte string (CPython `PyInt_FromString` with base 10): white space, optional
sign, white space, digits, white space.  `none` is `ValueError`. -/
def pyInt (s : Text) : Option Int :=
  match s.dropWhile isSpace with
  | '-' :: r => (readNat (r.dropWhile isSpace)).map fun n => - (n : Int)
  | '+' :: r => (readNat (r.dropWhile isSpace)).map fun n => (n : Int)
  | r => (readNat r).map fun n => (n : Int)

end Bglib
