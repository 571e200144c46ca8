import Verif.Py
/-
Model of `bglib/model/constants.py`, `bglib/model/util.py` (numeric part) and `bglib/model/board.py`.
-/
namespace Bglib

/-! ### constants.py -/
/-- constants.py:9 -/ def YOU : Int := 0
/-- constants.py:10 -/ def HIM : Int := 1
/-- constants.py:11 -/ def CENTER : Int := 3
/-- constants.py:15 -/ def OFF : Int := -1
/-- constants.py:16 -/ def BAR : Int := 24
/-- constants.py:22 -/ def NOT_STARTED : Int := 0
/-- constants.py:23 -/ def ON_GOING : Int := 1
/-- constants.py:24 -/ def FINISHED : Int := 2
/-- constants.py:25 -/ def RESIGNED : Int := 3
/-- constants.py:26 -/ def DOUBLED_OUT : Int := 4
/-- constants.py:29 -/ def MONEY_GAME : Int := 0
/-- constants.py:32 -/ def RESIGN_NONE : Int := 0
/-- constants.py:33 -/ def RESIGN_SINGLE : Int := 1
/-- constants.py:34 -/ def RESIGN_GAMMON : Int := 2
/-- constants.py:35 -/ def RESIGN_BACKGAMMON : Int := 3

/-- `n in POINTS`; constants.py:17, `POINTS = range(0, 24)`. -/
def isPoint (n : Int) : Bool := decide (0 ≤ n ∧ n < 24)

/-- One row of constants.py:39. -/
def initialRow : List Int :=
  [0,0,0,0,0,5,0,3,0,0,0,0,5,0,0,0,0,0,0,0,0,0,0,2,0]

/-- Python's `range(a, b)`. -/
def pyRange (a b : Int) : List Int := (List.range (b - a).toNat).map (fun (k : Nat) => a + (k : Int))

/-! ### util.py -/
/-- util.py:11-12 -/
def flipPoint (n : Int) : Int := 23 - n

/-- util.py:66-71 -/
def getOpp (p : Int) : Py Int :=
  if p = HIM then .ok YOU else if p = YOU then .ok HIM else .error .valueError

/-! ### board.py -/
/-- The attributes of `AbstractBoard.defaults`, board.py:13-26.  Simplifications: the attributes have
the types they have in every use (two rows of integers, integers, booleans); the logarithm of the cube
is a natural number, so that `pow(2, cube)` is an integer. -/
structure Board where
  position : List Int × List Int := (initialRow, initialRow)
  cube : Nat := 0
  cubeOwner : Int := CENTER
  onAction : Int := YOU
  crawford : Bool := false
  gameState : Int := NOT_STARTED
  onInnerAction : Int := YOU
  doubled : Bool := false
  resignOffer : Int := RESIGN_NONE
  rolled : Int × Int := (0, 0)
  matchLength : Int := 0
  score : Int × Int := (0, 0)
deriving DecidableEq, Repr

namespace Board

/-- The unpacking `to_move, to_hit = self.position` (or swapped), board.py:60-65. `none`: `on_action`
is no player. -/
def rows (b : Board) : Option (List Int × List Int) :=
  if b.onAction = YOU then some (b.position.1, b.position.2)
  else if b.onAction = HIM then some (b.position.2, b.position.1)
  else none

/-- board.py:48-57.  With a bad `on_action` the local `to_hit` is unbound. -/
def isOpenToLand (b : Board) (n : Int) : Py Bool :=
  if isPoint n then
    match b.rows with
    | none => .error .unboundLocal
    | some (_, toHit) => do
      let x ← pyGet toHit (flipPoint n)
      return decide (x < 2)
  else if n = -1 then .ok true else .error .assertion

/-- board.py:59-70.  The Python returns the count itself (or `False`); every caller uses its truth
value only, which for an integer is "nonzero". -/
def hasChequerToMove (b : Board) (n : Int) : Py Bool :=
  match b.rows with
  | none => .error .assertion
  | some (toMove, _) => do
    let bar ← pyGet toMove BAR
    if bar = 0 then
      let x ← pyGet toMove n
      return decide (x ≠ 0)
    else if n = BAR then
      let x ← pyGet toMove n
      return decide (x ≠ 0)
    else return false

/-- board.py:72-81 -/
def isHittingToLand (b : Board) (n : Int) : Py Bool :=
  if isPoint n then
    match b.rows with
    | none => .error .unboundLocal
    | some (_, toHit) => do
      let x ← pyGet toHit (flipPoint n)
      return decide (x = 1)
  else if n = -1 then .ok false else .error .assertion

/-- `for i in ns: if self.has_chequer_to_move(i): return …`, the common loop of board.py:85-87, 90-92,
136-138, 141-143: is there a movable chequer on one of `ns`? -/
def anyChequer (b : Board) : List Int → Py Bool
  | [] => .ok false
  | n :: ns => do
    if ← b.hasChequerToMove n then return true
    b.anyChequer ns

/-- board.py:83-98 -/
def isOkToBearoffFrom (b : Board) (n die : Int) : Py Bool :=
  if n + 1 < die then do
    let a ← b.anyChequer (pyRange (n + 1) (BAR + 1))
    return !a
  else if n + 1 = die then do
    if ← b.anyChequer (pyRange 6 25) then return false
    b.hasChequerToMove n
  else .ok false

/-- board.py:100-106 -/
def isLegalToRoll (b : Board) (who : Int) : Bool :=
  b.gameState = ON_GOING && b.resignOffer = RESIGN_NONE && b.rolled = (0, 0) &&
  b.onAction = who && b.onInnerAction = who

/-- board.py:109-119 -/
def isLegalToMove (b : Board) (who : Int) : Bool :=
  b.gameState = ON_GOING && b.onAction = who && b.onInnerAction = who &&
  b.resignOffer = RESIGN_NONE && b.rolled ≠ (0, 0)

/-- board.py:122-125 -/
def hasRolled (b : Board) : Bool := b.rolled ≠ (0, 0)

/-- board.py:127-129 -/
def isDoubles (b : Board) : Py Bool :=
  if b.hasRolled then .ok (decide (b.rolled.1 = b.rolled.2)) else .error .assertion

/-- board.py:131-133 -/
def isCubeTakeOrPass (b : Board) (who : Int) : Bool :=
  b.doubled && b.onInnerAction ≠ b.onAction && b.onInnerAction = who

/-- `for i in …: if self.has_chequer_to_move(i): return i`, board.py:144-146 -/
def firstChequer (b : Board) : List Int → Py (Option Int)
  | [] => .ok none
  | n :: ns => do
    if ← b.hasChequerToMove n then return some n
    b.firstChequer ns

/-- board.py:135-147; `range(die, 0, -1)` is `die, die-1, …, 1`. -/
def findSrcOfBearoffWith (b : Board) (die : Int) : Py (Option Int) := do
  if ← b.anyChequer (pyRange 6 25) then return none
  if ← b.hasChequerToMove (die - 1) then return some (die - 1)
  if ← b.anyChequer (pyRange (die - 1) 6) then return none
  b.firstChequer (pyRange 1 (die + 1)).reverse

/-- board.py:149-177 -/
def isLegalToDouble (b : Board) (who : Int) : Py Bool :=
  if b.rolled ≠ (0, 0) then .error .assertion
  else if b.gameState ≠ ON_GOING then .error .assertion
  else if b.crawford then .ok false
  else if b.doubled then .ok false
  else if b.onAction = YOU then
    if who ≠ YOU then .ok false
    else if b.onInnerAction = YOU then
      if b.matchLength = MONEY_GAME then .ok true
      else if b.score.1 ≤ b.matchLength - 2 ^ b.cube then .ok true
      else .ok false
    else .ok false
  else if b.onAction = HIM then
    if who ≠ HIM then .ok false
    else if b.onInnerAction = HIM then
      if b.matchLength = MONEY_GAME then .ok true
      else if b.score.2 < b.matchLength - 2 ^ b.cube then .ok true
      else .ok false
    else .ok false
  else .error .assertion

/-- board.py:179-182 -/
def isLegalToRedouble (b : Board) (who : Int) : Bool :=
  b.isCubeTakeOrPass who && b.matchLength = MONEY_GAME

/-- board.py:184-185 -/
def isLegalToResign (b : Board) (who : Int) : Bool :=
  b.onAction = who && b.onInnerAction = who

/-- board.py:187-192 -/
def isToAcceptResign (b : Board) (who : Int) : Bool :=
  (b.resignOffer = RESIGN_SINGLE || b.resignOffer = RESIGN_GAMMON ||
    b.resignOffer = RESIGN_BACKGAMMON) && b.onInnerAction = who

end Board
end Bglib
