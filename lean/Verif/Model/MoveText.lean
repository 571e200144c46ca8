import Verif.Model.MoveFactory
import Verif.Model.Util
import Verif.Model.Regex
/-
Model of the texts of movements, moves and dice: `__str__` and `__repr__` in `bglib/model/move.py`.
-/
namespace Bglib

/-- `', '.join(l)`. -/
def joinComma : List Text → Text
  | [] => []
  | [f] => f
  | f :: fs => f ++ ',' :: ' ' :: joinComma fs

/-- `PartialMove.__str__`, move.py:93-97. -/
def pmText (pm : PartialMove) : Py Text := do
  let s ← moveNtop pm.src
  let d ← moveNtop pm.dest
  return s ++ '/' :: d ++ (if pm.isHitting then ['*'] else [])

/-- `PartialMove.__repr__`, move.py:91-92. -/
def pmRepr (pm : PartialMove) : Py Text := do
  let s ← pmText pm
  return t!"<PartialMove: " ++ s ++ ['>']

/-- `Move.__str__`, move.py:128-132; `if self` calls `__len__`. -/
def moveText (pms : List PartialMove) : Py Text := do
  if pms.length ≠ 0 then
    let l ← pms.mapM pmText
    return joinComma l
  else return t!"o-o"

/-- `Move.__repr__`, move.py:125-126: the text of a list shows the `repr` of its elements. -/
def moveRepr (pms : List PartialMove) : Py Text := do
  let l ← pms.mapM pmRepr
  return t!"<Move: " ++ '[' :: joinComma l ++ t!"]>"

/-- `Move.add`, move.py:143-146. -/
def moveAdd (pms qs : List PartialMove) : List PartialMove := qs.foldl moveAppend pms

/-- `AvailableToPlay.__str__`, move.py:79-84.  `items()` of the dictionary gives the keys 1 to 6 in this order
(CPython, small integers).  Simplification: for dictionaries without other keys (`extra` is not shown). -/
def availText (a : Avail) : Text :=
  t!"Available to play: " ++ joinComma
    ([(1, a.d1), (2, a.d2), (3, a.d3), (4, a.d4), (5, a.d5), (6, a.d6)].flatMap
      fun (p : Int × Nat) => List.replicate p.2 (pyStr p.1))

end Bglib
