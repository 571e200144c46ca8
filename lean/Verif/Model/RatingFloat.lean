import Verif.Model.Mag
/-
Model of `bglib/stat/rating.py` with floating point numbers.

As in `Verif.Model.Mag`, floating point numbers are the rationals they stand for and `fl` rounds to 53
binary digits.  Small numbers have no limit, so gradual underflow is left out (a chance below 2^-1022 would
have fewer digits).  Ratings are floats, or integers of any size; the length is an integer below 2^53.
`math.sqrt` and `pow` are those of the C library of the machine and are parameters; `Verif.Spec.RatingFloat`
says what is assumed of them.
-/
namespace Bglib.Flt
open Bglib.Img (fl)

/-- What the C library answers: `sqrt`, and `pow` with base 10, where `none` is an `OverflowError`. -/
structure MathLib where
  sqrt : Rat → Rat
  pow10 : Rat → Option Rat

/-- rating.py:13-15.  The difference of two integers is exact and rounded when it is multiplied by a float,
that of two floats is rounded; both are `fl (high - low)`. -/
def upsetChance (m : MathLib) (high low : Rat) (length : Int) : Py Rat :=
  if high ≥ low then
    if length < 0 then .error .valueError
    else match m.pow10 (fl (fl (fl (high - low) * m.sqrt length) / 2000)) with
      | none => .error .overflow
      | some p => .ok (fl (1 / fl (p + 1)))
  else .error .assertion

/-- rating.py:18-19 -/
def winningChance (m : MathLib) (high low : Rat) (length : Int) : Py Rat :=
  match upsetChance m high low length with
  | .error e => .error e
  | .ok u => .ok (fl (1 - u))

/-- rating.py:22-26 -/
def gainOnWin (m : MathLib) (player opp : Rat) (length : Int) : Py Rat :=
  if player ≥ opp then
    match upsetChance m player opp length with
    | .error e => .error e
    | .ok u => .ok (fl (length * u))
  else
    match upsetChance m opp player length with
    | .error e => .error e
    | .ok u => .ok (fl (length * fl (1 - u)))

end Bglib.Flt
