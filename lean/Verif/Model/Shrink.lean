import Verif.Model.Regex
/-
Model of `bglib/image/resource/convert.py`, the program that makes the images of points and bars from larger ones.  (It has no
function: it works when it is started, or imported, in the current directory.)

The imaging library is a parameter.  Simplification: a file whose image could not be saved is left empty.
-/
namespace Bglib.Shrink
open Bglib

/-- `Image.open(…).resize(size, resample=1)` and `save`; `none` if the library raises something. -/
structure Lib (Data Img : Type) where
  resized : Data → Nat × Nat → Option Img
  saved : Img → Option Data
  empty : Data

/-- The files of the directory. -/
abbrev Dir (Data : Type) := Text → Option Data

/-- `filename.endswith("cut.jpg")`, convert.py:5 -/
def isCut (n : Text) : Bool := t!"cut.jpg".isSuffixOf n

/-- `filename[:-8]+'.jpg'`, convert.py:6 -/
def saveName (n : Text) : Text := n.take (n.length - 8) ++ t!".jpg"

/-- The size, convert.py:8-11 -/
def sizeAsked (n : Text) : Nat × Nat := if t!"bar".isPrefixOf n then (25, 88) else (19, 88)

/-- `file(savename, 'w+b')` and what is written, convert.py:12-13 -/
def Dir.put {Data : Type} (d : Dir Data) (n : Text) (x : Data) : Dir Data := fun m => if m = n then some x else d m

/-- The loop, convert.py:4-13, over what `os.listdir` answered; whether it came to its end. -/
def convert {Data Img : Type} (lib : Lib Data Img) : List Text → Dir Data → Dir Data × Bool
  | [], d => (d, true)
  | n :: r, d =>
    if isCut n then
      match (d n).bind (lib.resized · (sizeAsked n)) with
      | none => (d, false)
      | some i => match lib.saved i with
        | none => (d.put (saveName n) lib.empty, false)
        | some x => convert lib r (d.put (saveName n) x)
    else convert lib r d

end Bglib.Shrink
