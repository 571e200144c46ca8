import Verif.Model.Draw
/-
bglib/image/base.py:208-212, 310-317 and bglib/image/draw.py:35-47: the magnification of a picture.

Floating point numbers are the rationals they stand for; `fl` rounds to the nearest number with 53 binary digits,
ties to even, as Python's float division and multiplication do on the usual machines.  The range of exponents is
not limited, so overflow and gradual underflow are left out: the theorems are about sizes of at most 2^25.  `float(n)`
of such a size is the size itself.
-/
namespace Bglib.Img

/-- A power of two. -/
def pow2 (t : Int) : Rat := if 0 ≤ t then 2 ^ t.toNat else 1 / 2 ^ (-t).toNat

/-- The nearest integer, ties to even. -/
def nearestInt (y : Rat) : Int :=
  let d := y.floor
  let r := y - d
  if r < 1 / 2 then d else if 1 / 2 < r then d + 1 else if d % 2 = 0 then d else d + 1

/-- The exponent of a positive number: `2 ^ t ≤ x < 2 ^ (t + 1)`. -/
def exponent (x : Rat) : Int :=
  let t : Int := (x.num.toNat.log2 : Int) - (x.den.log2 : Int)
  if x < pow2 t then t - 1 else t

/-- Rounding a positive number. -/
def flPos (x : Rat) : Rat := nearestInt (x / pow2 (exponent x - 52)) * pow2 (exponent x - 52)

/-- Rounding. -/
def fl (x : Rat) : Rat := if x = 0 then 0 else if x < 0 then -flPos (-x) else flPos x

/-- `int` of a float: towards zero. -/
def truncate (y : Rat) : Int := if y < 0 then -(-y).floor else y.floor

/-- `apply_mag`, base.py:211-212 -/
def applyMag (mag : Rat) (x : Int) : Int := truncate (fl (x * mag))

/-- `set_mag`, base.py:310-317: the magnification. -/
def setMag (w h : Int) (bound : Int × Int) : Py Rat :=
  if w = 0 ∨ h = 0 then .error .zeroDivision
  else
    let xmag := fl (bound.1 / w)
    let ymag := fl (bound.2 / h)
    if ¬ xmag > 0 then .error .assertion
    else if ¬ ymag > 0 then .error .assertion
    else
      let mag := if ymag < xmag then ymag else xmag
      if ¬ fl (w * mag) ≤ bound.1 then .error .assertion
      else if ¬ fl (h * mag) ≤ bound.2 then .error .assertion
      else .ok mag

/-- `t.board.set_mag(size)`, draw.py:39 -/
def treeMag (t : Tree) (size : Int × Int) : Py Rat := do
  let w ← attrInt t!"width" [t.elem]
  let h ← attrInt t!"height" [t.elem]
  setMag w h size

/-- `draw`, draw.py:35-47: the picture of a board of a size.  The `mag` of every element is that of the board;
none of the shipped styles sets it. -/
def drawSized (rules : List Rule) (size : Int × Int) (b : Board) : Py (List Op) :=
  match ETree.create.set b with
  | .error x => .error x
  | .ok t =>
    match t.board.styled rules [] with
    | .error x => .error x
    | .ok t =>
      match treeMag t size with
      | .error x => .error x
      | .ok mag =>
        match t.drawn (applyMag mag) [] with
        | .error x => .error x
        | .ok ops => resultOf ops

end Bglib.Img
