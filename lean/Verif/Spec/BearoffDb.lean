import Verif.Model.BearoffDb
/-
Bear-off databases, written independently of the readers: single precision numbers, records, and the number of a
pair of positions.
-/
namespace Bglib.Spec

/-- The 32 bits of a single as four bytes, least significant first. -/
def wordBytes (w : Nat) : List Nat := [w % 256, w / 256 % 256, w / 65536 % 256, w / 16777216]

/-- The size of a finite single in units of `2^-149`: bits 0 to 22 are the fraction, bits 23 to 30 the
exponent. -/
def magnitude (w : Nat) : Nat :=
  let e := w / 2 ^ 23 % 256
  let f := w % 2 ^ 23
  if e = 0 then f else (2 ^ 23 + f) * 2 ^ (e - 1)

/-- The value of a single (IEEE 754). -/
def singleValue (w : Nat) : PyFloat :=
  if w / 2 ^ 23 % 256 = 255 then (if w % 2 ^ 23 = 0 then .inf (w / 2 ^ 31 = 1) else .nan)
  else if w / 2 ^ 31 = 1 then .fin (- (magnitude w : Int)) else .fin (magnitude w)

/-- A record: equity with the cube in the middle, at the opponent, at the roller; winning chances. -/
structure Record where
  center : Nat
  opponent : Nat
  roller : Nat
  chance : Nat
deriving DecidableEq, Repr

/-- Four words of 32 bits. -/
def Record.Ok (r : Record) : Prop := r.center < 2 ^ 32 ∧ r.opponent < 2 ^ 32 ∧ r.roller < 2 ^ 32 ∧ r.chance < 2 ^ 32

/-- The bytes of a record. -/
def Record.bytes (r : Record) : List Nat :=
  wordBytes r.center ++ wordBytes r.opponent ++ wordBytes r.roller ++ wordBytes r.chance

/-- A database file. -/
def dbFile (l : List Record) : List Nat := l.flatMap Record.bytes

/-- The values of a record. -/
def Record.values (r : Record) : PyFloat × PyFloat × PyFloat × PyFloat :=
  (singleValue r.center, singleValue r.opponent, singleValue r.roller, singleValue r.chance)

/-- Trice's numbering of pairs, by growing squares: pairs whose larger number is `m` follow those whose larger
number is less; first `(m, 0), …, (m, m)`, then `(m - 1, m), …, (0, m)`.  Counting starts with 1. -/
def pairNumber (a b : Nat) : Nat := if b ≤ a then a * a + b + 1 else b * b + (2 * b - a) + 1

/-- The authors' table of numbers of pairs of positions, t2k.py:27-57: number, our chequers, theirs. -/
def triceTable : List (Nat × List Nat × List Nat) := [
  (1, [0,0,0,0,0,0], [0,0,0,0,0,0]), (2, [1,0,0,0,0,0], [0,0,0,0,0,0]), (3, [1,0,0,0,0,0], [1,0,0,0,0,0]),
  (4, [0,0,0,0,0,0], [1,0,0,0,0,0]), (5, [0,1,0,0,0,0], [0,0,0,0,0,0]), (6, [0,1,0,0,0,0], [1,0,0,0,0,0]),
  (7, [0,1,0,0,0,0], [0,1,0,0,0,0]), (8, [1,0,0,0,0,0], [0,1,0,0,0,0]), (9, [0,0,0,0,0,0], [0,1,0,0,0,0]),
  (10, [0,0,1,0,0,0], [0,0,0,0,0,0]), (11, [0,0,1,0,0,0], [1,0,0,0,0,0]), (12, [0,0,1,0,0,0], [0,1,0,0,0,0]),
  (13, [0,0,1,0,0,0], [0,0,1,0,0,0]), (14, [0,1,0,0,0,0], [0,0,1,0,0,0]), (15, [1,0,0,0,0,0], [0,0,1,0,0,0]),
  (16, [0,0,0,0,0,0], [0,0,1,0,0,0]), (17, [0,0,0,1,0,0], [0,0,0,0,0,0]), (18, [0,0,0,1,0,0], [1,0,0,0,0,0]),
  (19, [0,0,0,1,0,0], [0,1,0,0,0,0]), (20, [0,0,0,1,0,0], [0,0,1,0,0,0]), (21, [0,0,0,1,0,0], [0,0,0,1,0,0]),
  (22, [0,0,1,0,0,0], [0,0,0,1,0,0]), (23, [0,1,0,0,0,0], [0,0,0,1,0,0]), (24, [1,0,0,0,0,0], [0,0,0,1,0,0]),
  (25, [0,0,0,0,0,0], [0,0,0,1,0,0]), (49, [0,0,0,0,0,0], [0,0,0,0,0,1]), (50, [2,0,0,0,0,0], [0,0,0,0,0,0]),
  (51, [2,0,0,0,0,0], [1,0,0,0,0,0]), (65, [1,1,0,0,0,0], [0,0,0,0,0,0])]

/-- The number of a pair of positions: the numbers of the two sides (C24) taken together.  `us` is the player on
roll. -/
def triceNumber (us them : List Nat) : Py Nat := do
  let a ← onesideIndex us 6 15
  let b ← onesideIndex them 6 15
  return pairNumber a b

end Bglib.Spec
