import Verif.Model.Wiki
/-
Model of the numbers in the tables of the macro `Analysis`, `bglib/doc/macro.py`.
-/
namespace Bglib.Doc
open Bglib

/-- A finite Python float: a sign and a fraction (every float is one; zero has a sign too).  Infinities and not a
number are left out. -/
structure Flt where
  neg : Bool := false
  num : Nat
  den : Nat := 1
deriving DecidableEq, Repr

/-- The nearest whole number to `num / den`, of two equally near ones the even one (the rounding of `%f`). -/
def roundEven (num den : Nat) : Nat :=
  let q := num / den
  let r := num % den
  if 2 * r < den then q
  else if den < 2 * r then q + 1
  else if q % 2 = 0 then q else q + 1

/-- The last `k` digits of a number. -/
def lastDigits : Nat → Nat → Text
  | 0, _ => []
  | k + 1, n => lastDigits k (n / 10) ++ [digitChar (n % 10)]

/-- `n` units of the `k`-th place after the point. -/
def pointText (k n : Nat) : Text := decimal (n / 10 ^ k) ++ '.' :: lastDigits k n

/-- `signed_one_three`, macro.py:19-21: `'%+1.3f'%f`.  The width 1 never matters. -/
def signedOneThree (f : Flt) : Text :=
  (if f.neg then '-' else '+') :: pointText 3 (roundEven (f.num * 1000) f.den)

/-- `percent_two_one`, macro.py:23-25: `'%2.1f'%f`.  The text has three characters at least, so that the width 2
never matters. -/
def percentTwoOne (f : Flt) : Text :=
  (if f.neg then ['-'] else []) ++ pointText 1 (roundEven (f.num * 10) f.den)

/-- `f == 0.0`. -/
def Flt.isZero (f : Flt) : Bool := f.num = 0

/-- `CUBEACTION_STRINGS`, constants.py:47. -/
def cubeActionStrings : List Text := [t!"No double", t!"Double, take", t!"Double, pass", t!"Too good to double"]

/-- `CUBEACTION_STRINGS[action]`: a tuple of four, so that -4 to -1 count from the end. -/
def cubeActionString (action : Int) : Py Text :=
  match (if 0 ≤ action then cubeActionStrings[action.toNat]?
    else if -4 ≤ action then cubeActionStrings[(action + 4).toNat]? else none) with
  | some t => .ok t
  | none => .error .indexError

/-- The class of a row, macro.py:272-275, 352-355. -/
def rowClass (nth : Int) (actual : Bool) : Text :=
  if actual then t!"actualrow" else if nth % 2 = 0 then t!"evenrow" else t!"oddrow"

/-- `CubeAction_table_row`, macro.py:260-293: the class and the three cells.  `actual` is an integer (`False` is 0,
`True` is 1); the assertion of line 262 looks at it instead of `action`.  Simplification: arguments of the types
asserted. -/
def cubeActionRow (nth action : Int) (equity : Flt) (diff : Option Flt) (actual : Int) : Py (Text × List Text) :=
  if ¬ (actual = 0 ∨ actual = 1 ∨ actual = 2 ∨ actual = 3) then .error .assertion
  else
    let diff := match diff with
      | none => []
      | some d => if d.isZero then [] else signedOneThree d
    match cubeActionString action with
    | .error e => .error e
    | .ok a => .ok (rowClass nth (actual ≠ 0), [a, signedOneThree equity, diff])

/-- The arguments of `Movelisting_row` and `CubelessEquity`: winning and losing chances. -/
structure Chances where
  win : Flt
  winG : Flt
  winBg : Flt
  lose : Flt
  loseG : Flt
  loseBg : Flt
deriving DecidableEq, Repr

/-- The six chances, macro.py:363-368, 446-451. -/
def Chances.texts (c : Chances) : List Text :=
  [percentTwoOne c.win, percentTwoOne c.winG, percentTwoOne c.winBg, percentTwoOne c.lose, percentTwoOne c.loseG,
    percentTwoOne c.loseBg]

/-- `Movelisting_row`, macro.py:340-423: the class, and the cells of both rows. -/
def moveListingRow (nth : Int) (move : Text) (ply : Int) (equity : Flt) (diff : Option Flt) (c : Chances)
    (actual : Bool) : Text × List Text :=
  let diff := match diff with
    | none => []
    | some d => if d.isZero then [] else '(' :: signedOneThree d ++ t!") "
  (rowClass nth actual, [move, pyStr ply, signedOneThree equity ++ ' ' :: diff] ++ c.texts)

/-- `CubelessEquity`, macro.py:428-527: the cells. -/
def cubelessTexts (ply : Int) (cubeless money : Flt) (c : Chances) : List Text :=
  [pyStr ply, signedOneThree cubeless ++ t!" (Money " ++ signedOneThree money ++ t!")"] ++ c.texts

end Bglib.Doc
