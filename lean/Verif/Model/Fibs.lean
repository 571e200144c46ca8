import Verif.Model.Xgid
/-
Model of the board part of `bglib/encoding/FIBS.py` (lines 12-141).

Simplification: only lines with at least 53 fields whose fields 3..52 are integers are modelled (FIBS sends
no others); for any other line `fibsParse` answers `none` and nothing is claimed.  The values of the fields
1 and 2 (names) are not used by `decode`.
-/
namespace Bglib

/-- The values of a board line, FIBS.py:16-41, indexed as in the line. -/
structure FibsState where
  matchlength : Int
  yourScore : Int
  hisScore : Int
  board : List Int
  turn : Int
  yourDice : Int × Int
  hisDice : Int × Int
  doublingCube : Int
  youMayDouble : Int
  heMayDouble : Int
  wasDoubled : Int
  yourColour : Int
  yourDirection : Int
deriving DecidableEq, Repr

/-- `__init__`, `__getattr__` and the table `index`, FIBS.py:16-56. -/
def fibsParse (s : Text) : Option FibsState :=
  let data := splitChar ':' s
  match (data.drop 3).mapM pyInt with
  | none => none
  | some v =>
    if v.length < 50 then none
    else
      let at_ (i : Nat) : Int := v.getD (i - 3) 0
      some {
        matchlength := at_ 3, yourScore := at_ 4, hisScore := at_ 5,
        board := (v.take (32 - 3)).drop (6 - 3), turn := at_ 32, yourDice := (at_ 33, at_ 34),
        hisDice := (at_ 35, at_ 36), doublingCube := at_ 37, youMayDouble := at_ 38,
        heMayDouble := at_ 39, wasDoubled := at_ 40, yourColour := at_ 41, yourDirection := at_ 42 }

/-- `your_chequers`, FIBS.py:60-63 -/
def yourChequers (colour x : Int) : Int := if colour * x > 0 then x.natAbs else 0
/-- `his_chequers`, FIBS.py:64-67 -/
def hisChequers (colour x : Int) : Int := if colour * x < 0 then x.natAbs else 0

/-- `position()`, FIBS.py:58-82 -/
def FibsState.position (f : FibsState) : List Int × List Int :=
  let pts := (f.board.take 25).drop 1
  let b0 := f.board.getD 0 0
  let b25 := f.board.getD 25 0
  if f.yourDirection < 0 then
    ((pts ++ [b25]).map (yourChequers f.yourColour), (b0 :: pts).reverse.map (hisChequers f.yourColour))
  else
    ((b0 :: pts).reverse.map (yourChequers f.yourColour), (pts ++ [b25]).map (hisChequers f.yourColour))

/-- `log`, FIBS.py:86-91, with recursion bound. -/
def fibsLogAux : Nat → Nat → Nat
  | 0, _ => 0
  | f + 1, n => if n > 1 then fibsLogAux f (n / 2) + 1 else 0

/-- `log(power_of_two)`; numbers below 2 (also negative ones) give 0. -/
def fibsLog (n : Int) : Nat := fibsLogAux (n.toNat + 1) n.toNat

/-- Cube owner and Crawford flag, FIBS.py:99-110. -/
def fibsCube (b : Board) (f : FibsState) : Board :=
  if f.youMayDouble ≠ 0 ∧ f.heMayDouble ≠ 0 then { b with cubeOwner := CENTER, crawford := false }
  else if f.youMayDouble ≠ 0 ∧ f.heMayDouble = 0 then { b with cubeOwner := YOU, crawford := false }
  else if f.youMayDouble = 0 ∧ f.heMayDouble ≠ 0 then { b with cubeOwner := HIM, crawford := false }
  else { b with cubeOwner := CENTER, crawford := true }

/-- FIBS.py:85-141 on parsed values.  When it is not your turn the names `bglib` (line 121) or `INVALID`
(line 124) are undefined: `NameError`, after the assignments made before that line. -/
def fibsApply (b : Board) (f : FibsState) : DecodeResult :=
  let b := { b with position := f.position }
  let b := { b with cube := fibsLog f.doublingCube }
  let b := fibsCube b f
  if f.turn = f.yourColour then
    let b := { b with onAction := YOU, onInnerAction := YOU, rolled := f.yourDice, gameState := ON_GOING }
    let b := if f.wasDoubled ≠ 0 then { b with doubled := true, onInnerAction := HIM } else b
    ⟨{ b with resignOffer := RESIGN_NONE, matchLength := f.matchlength,
              score := (f.yourScore, f.hisScore) }, none⟩
  else if f.turn = f.yourColour * -1 then
    ⟨{ b with rolled := f.hisDice, onAction := HIM, onInnerAction := HIM }, some .nameError⟩
  else ⟨{ b with rolled := (0, 0) }, some .nameError⟩

/-- `decode(m, s)`, FIBS.py:85-141. -/
def fibsDecode (b : Board) (s : Text) : Option DecodeResult := (fibsParse s).map (fibsApply b)

end Bglib
