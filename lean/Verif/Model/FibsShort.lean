import Verif.Model.Fibs
/-
`bglib/encoding/FIBS.py`, lines 12-141, on board lines of any length.

Only lines whose fields from 3 on are integers are modelled.  An attribute beyond the end of the line is the
empty tuple (`tuple([])`, FIBS.py:47-56), and so is `() * x`; in Python 2 it is greater than every integer, it is
not an integer, and it counts as false.
-/
namespace Bglib

/-- `position()`, FIBS.py:58-82, without colour and direction: `() < 0` is false (line 69), `() * x > 0` is true
(line 61) and `() * x < 0` is false (line 65). -/
def colourless (board : List Int) : List Int × List Int :=
  let pts := (board.take 25).drop 1
  (((board.getD 0 0 :: pts).reverse.map fun x => (x.natAbs : Int)), (pts ++ [board.getD 25 0]).map fun _ => 0)

/-- `decode(m, s)`, FIBS.py:85-141, when the fields from 3 on are the numbers `v`.  With less than 26 entries of the
board `self.board[25]` fails (a single entry is a number and has no entries at all, line 75); without cube
`() >> 1` fails (line 89); without colour the name `INVALID` is missing (line 124). -/
def fibsDecodeNums (b : Board) (v : List Int) : DecodeResult :=
  let at_ (i : Nat) : Int := v.getD (i - 3) 0
  let f : FibsState := {
    matchlength := at_ 3, yourScore := at_ 4, hisScore := at_ 5,
    board := (v.take (32 - 3)).drop (6 - 3), turn := at_ 32, yourDice := (at_ 33, at_ 34),
    hisDice := (at_ 35, at_ 36), doublingCube := at_ 37, youMayDouble := at_ 38,
    heMayDouble := at_ 39, wasDoubled := at_ 40, yourColour := at_ 41, yourDirection := at_ 42 }
  if v.length < 29 then ⟨b, some (if v.length = 4 then .typeError else .indexError)⟩
  else if v.length < 39 then
    let b := { b with position := colourless f.board }
    if v.length < 35 then ⟨b, some .typeError⟩
    else
      let b := { b with cube := fibsLog f.doublingCube }
      ⟨{ fibsCube b f with rolled := (0, 0) }, some .nameError⟩
  else fibsApply b f

/-- The numbers from field 3 on; `none` if one of them is no integer. -/
def fibsNumbers (s : Text) : Option (List Int) := ((splitChar ':' s).drop 3).mapM pyInt

/-- `decode(m, s)` on lines of any length. -/
def fibsDecodeAny (b : Board) (s : Text) : Option DecodeResult := (fibsNumbers s).map (fibsDecodeNums b)

end Bglib
