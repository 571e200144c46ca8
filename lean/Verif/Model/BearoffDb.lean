import Verif.Model.Bearoff
import Verif.Model.Text
/-
Model of the readers of bear-off databases: `dump`, `human_readable` and the number of a position in
`bglib/encoding/bearoff/nori.py` and `trice.py`.
-/
namespace Bglib

/-- The values of Python floats that come from single precision numbers: a whole number of units of `2^-149`,
an infinity, or not a number.  Simplification: the sign of zero is left out, as `==` does. -/
inductive PyFloat where
  | fin (n : Int)
  | inf (negative : Bool)
  | nan
deriving DecidableEq, Repr

/-- `struct.unpack('f', …)` on a little-endian machine (`struct` is a library module; the fields are those of
IEEE 754: a sign bit, 8 bits of exponent, 23 bits of fraction). -/
def unpackSingle (b0 b1 b2 b3 : Nat) : PyFloat :=
  let neg := b3 / 128 = 1
  let e := b3 % 128 * 2 + b2 / 128
  let f := b2 % 128 * 65536 + b1 * 256 + b0
  let mag : Nat := if e = 0 then f else (f + 8388608) * 2 ^ (e - 1)
  if e = 255 then (if f = 0 then .inf neg else .nan)
  else .fin (if neg then - (mag : Int) else mag)

/-- `struct.unpack('ffff', chunk)`, trice.py:58, nori.py:59; for a chunk of another length than 16
`struct.error` (not in the model's list of exceptions; `rawread` never gives one). -/
def unpackFour : List Nat → Py (PyFloat × PyFloat × PyFloat × PyFloat)
  | [a0, a1, a2, a3, b0, b1, b2, b3, c0, c1, c2, c3, d0, d1, d2, d3] =>
    .ok (unpackSingle a0 a1 a2 a3, unpackSingle b0 b1 b2 b3, unpackSingle c0 c1 c2 c3, unpackSingle d0 d1 d2 d3)
  | _ => .error .valueError

/-- `dump(index)`, trice.py:52-58 and nori.py:53-59. -/
def dbDump (file : List Nat) (plan : List Nat) (index : Int) : Py (PyFloat × PyFloat × PyFloat × PyFloat) := do
  let chunk ← rawread file 16 plan index
  unpackFour chunk

/-- `x * 2` of a float that came from a single: exact in double precision. -/
def PyFloat.twice : PyFloat → PyFloat
  | .fin n => .fin (n * 2)
  | .inf s => .inf s
  | .nan => .nan

/-- `human_readable_eq`, trice.py:46-48. -/
def humanEq : PyFloat × PyFloat × PyFloat × PyFloat → PyFloat × PyFloat × PyFloat × PyFloat
  | (center, opponent, roller, cpw) => (center, opponent.twice, roller.twice, cpw)

/-- `human_readable(position_number)` of trice.py:60-61. -/
def triceHuman (file : List Nat) (plan : List Nat) (number : Int) :
    Py (PyFloat × PyFloat × PyFloat × PyFloat) := do
  let t ← dbDump file plan (number - 1)
  return humanEq t

/-- `human_readable(position_number)` of nori.py:61-62: `human_readable_eq` is not defined in that module, and
the name is looked up before the record is read. -/
def noriHuman (_file : List Nat) (_plan : List Nat) (_number : Int) :
    Py (PyFloat × PyFloat × PyFloat × PyFloat) := .error .nameError

/-- `trice_indexing(position)`, trice.py:43-44. -/
def triceIndexing (_position : Text) : Nat := 0

/-- `bearoff.DBReader.dump` and `human_readable` as inherited by gnubgdb.py:70-73: `pass`, that is `None`. -/
def gnubgDump (_index : Int) : Py (Option (PyFloat × PyFloat × PyFloat × PyFloat)) := .ok none

end Bglib
