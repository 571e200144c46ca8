import Verif.Model.RatingFloat
/-
Model of the handicaps of `bglib/stat/tourney.py` with floating point numbers.

As in `Verif.Model.RatingFloat`: floats are the rationals they stand for and `fl` rounds to 53 binary digits;
sums, products and quotients have no limit, neither large nor small.  `x ** n` is `pow` of the C library of
the machine and is a parameter; that it gives zero where the result is too small for a float is kept.
-/
namespace Bglib.Flt
open Bglib.Img (fl)

/-- What the C library answers, with `x ** n` for an integer `n`. -/
structure PowLib extends MathLib where
  pow : Rat → Int → Rat

/-- tourney.py:11-20 -/
def tourneyChance (m : PowLib) (player average : Rat) (rounds length : Int) : Py (Rat × Rat) :=
  if player ≥ average then
    match upsetChance m.toMathLib player average length with
    | .error e => .error e
    | .ok uc => .ok (m.pow (fl (1 - uc)) rounds, fl (m.pow (fl (1 - uc)) (rounds - 1) * uc))
  else
    match upsetChance m.toMathLib average player length with
    | .error e => .error e
    | .ok wc => .ok (m.pow wc rounds, fl (m.pow wc (rounds - 1) * fl (1 - wc)))

/-- Division of floats. -/
def quotient (a b : Rat) : Py Rat := if b = 0 then .error .zeroDivision else .ok (fl (a / b))

/-- tourney.py:23-38 -/
def prizeHandicap (m : PowLib) (player average : Rat) (rounds length : Int) (winner runnerup : Rat) : Py (Rat × Rat) := do
  let (avW, avR) ← tourneyChance m average average rounds length
  let expectedW := fl (avW * winner)
  let expectedR := fl (avR * runnerup)
  let (w, r) ← tourneyChance m player average rounds length
  let a ← quotient expectedW w
  let b ← quotient expectedR r
  return (a, b)

/-- tourney.py:41-57 -/
def entryfeeHandicap (m : PowLib) (player average : Rat) (rounds length : Int) (fee : Rat) : Py Rat := do
  let (avW, _) ← tourneyChance m average average rounds length
  let expectedW ← quotient fee avW
  let (w, _) ← tourneyChance m player average rounds length
  return fl (expectedW * w)

end Bglib.Flt
