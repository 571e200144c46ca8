import Verif.Model.Board
/-
Model of `bglib/model/boardeditor.py` and of `PartialMove` in `bglib/model/move.py`.

A `BoardEditor` is a mutable dictionary of the board attributes.  A method becomes a function from the
board before to `Step`: the board afterwards together with the exception raised, if any.  The board is
kept even on an exception, because Python does not roll back.
-/
namespace Bglib

/-- Result of a mutating call: state afterwards and the exception, if one was raised. -/
structure Step (σ : Type) where
  st : σ
  err : Option PyErr := none
deriving DecidableEq, Repr

/-- move.py:87-92 -/
structure PartialMove where
  die : Int
  src : Int
  dest : Int
  isHitting : Bool
deriving DecidableEq, Repr

namespace PartialMove
/-- move.py:101-102 -/ def isDance (pm : PartialMove) : Bool := pm.src = pm.dest
/-- move.py:103-104 -/ def isUndo (pm : PartialMove) : Bool := pm.dest > pm.src
/-- move.py:105-114 -/
def areInvertible (p pm : PartialMove) : Bool :=
  p.die = pm.die && p.src = pm.dest && p.dest = pm.src && p.isHitting = pm.isHitting
/-- The inverse built in move.py:226, 384, 412. -/
def inverse (pm : PartialMove) : PartialMove :=
  { die := pm.die, src := pm.dest, dest := pm.src, isHitting := pm.isHitting }
end PartialMove

namespace Board

/-- boardeditor.py:42-65.  The asserts come after the earlier attributes were swapped. -/
def flip (b : Board) : Step Board :=
  let swap (x : Int) : Option Int :=
    if x = YOU then some HIM else if x = HIM then some YOU else if x = CENTER then some CENTER else none
  match swap b.cubeOwner with
  | none => ⟨b, some .assertion⟩
  | some o =>
    let b1 := { b with cubeOwner := o, score := (b.score.2, b.score.1),
                       position := (b.position.2, b.position.1) }
    match swap b.onInnerAction with
    | none => ⟨b1, some .assertion⟩
    | some i =>
      let b2 := { b1 with onInnerAction := i }
      match swap b.onAction with
      | none => ⟨b2, some .assertion⟩
      | some a => ⟨{ b2 with onAction := a }, none⟩

/-- `if i > OFF: row[i] += d`, boardeditor.py:76-79. -/
def addIfOn (row : List Int) (i d : Int) : Py (List Int) :=
  if i > OFF then pyAdd row i d else .ok row

/-- The row updates of boardeditor.py:76-86 on copies of the rows. -/
def moveRows (pm : PartialMove) (toMove toHit : List Int) : Py (List Int × List Int) := do
  let m1 ← addIfOn toMove pm.src (-1)
  let m2 ← addIfOn m1 pm.dest 1
  if pm.isHitting then
    if pm.isUndo then do
      let h1 ← pyAdd toHit (flipPoint pm.src) 1
      let h2 ← pyAdd h1 BAR (-1)
      return (m2, h2)
    else do
      let h1 ← pyAdd toHit (flipPoint pm.dest) (-1)
      let h2 ← pyAdd h1 BAR 1
      return (m2, h2)
  else return (m2, toHit)

/-- boardeditor.py:67-92.  The rows are copied and stored at the end, so an exception leaves the board
as it was. -/
def makePartialMove (b : Board) (pm : PartialMove) : Py Board :=
  if b.onAction = YOU then do
    let (m, h) ← moveRows pm b.position.1 b.position.2
    return { b with position := (m, h) }
  else if b.onAction = HIM then do
    let (m, h) ← moveRows pm b.position.2 b.position.1
    return { b with position := (h, m) }
  else .error .assertion

/-- boardeditor.py:94-96; stops at the first exception, keeping the moves made so far. -/
def make (b : Board) : List PartialMove → Step Board
  | [] => ⟨b, none⟩
  | pm :: pms =>
    match b.makePartialMove pm with
    | .ok b' => b'.make pms
    | .error e => ⟨b, some e⟩

/-- boardeditor.py:98-101 -/
def double (b : Board) (who : Int) : Step Board :=
  match b.isLegalToDouble who with
  | .error e => ⟨b, some e⟩
  | .ok false => ⟨b, some .assertion⟩
  | .ok true =>
    match getOpp who with
    | .error e => ⟨b, some e⟩
    | .ok o => ⟨{ b with onInnerAction := o, doubled := true }, none⟩

/-- boardeditor.py:106-109 -/
def take (b : Board) (who : Int) : Step Board :=
  if b.isCubeTakeOrPass who then ⟨{ b with onInnerAction := b.onAction }, none⟩
  else ⟨b, some .assertion⟩

/-- `new = [0, 0]; new[p] = x; new[opp] = y` for the two players; with any other `who` the indexing or
`get_opp` raises, boardeditor.py:113-117 and 130-134. -/
def newScore (b : Board) (who mine his : Int) : Py (Int × Int) :=
  if who = YOU then .ok (b.score.1 + mine, b.score.2 + his)
  else if who = HIM then .ok (b.score.1 + his, b.score.2 + mine)
  else if who = -1 ∨ who = -2 then .error .valueError
  else .error .indexError

/-- boardeditor.py:111-117.  `game_state` is set before the score computation can raise. -/
def drop (b : Board) (who : Int) : Step Board :=
  if b.isCubeTakeOrPass who then
    let b1 := { b with gameState := DOUBLED_OUT }
    match b.newScore who 0 (2 ^ b.cube) with
    | .ok s => ⟨{ b1 with score := s }, none⟩
    | .error e => ⟨b1, some e⟩
  else ⟨b, some .assertion⟩

/-- boardeditor.py:119-126.  `resign_offer` is set before `get_opp` can raise. -/
def offerResign (b : Board) (who howMuch : Int) : Step Board :=
  if b.isLegalToResign who then
    if howMuch = RESIGN_SINGLE ∨ howMuch = RESIGN_GAMMON ∨ howMuch = RESIGN_BACKGAMMON then
      let b1 := { b with resignOffer := howMuch }
      match getOpp who with
      | .ok o => ⟨{ b1 with onInnerAction := o }, none⟩
      | .error e => ⟨b1, some e⟩
    else ⟨b, some .assertion⟩
  else ⟨b, some .assertion⟩

/-- boardeditor.py:128-134 -/
def acceptResign (b : Board) (who : Int) : Step Board :=
  if b.isToAcceptResign who then
    let b1 := { b with gameState := RESIGNED }
    match b.newScore who (b.resignOffer * 2 ^ b.cube) 0 with
    | .ok s => ⟨{ b1 with score := s }, none⟩
    | .error e => ⟨b1, some e⟩
  else ⟨b, some .assertion⟩

/-- boardeditor.py:136-139 -/
def rejectResign (b : Board) (who : Int) : Step Board :=
  if b.isToAcceptResign who then
    match getOpp who with
    | .ok o => ⟨{ b with onInnerAction := o, resignOffer := RESIGN_NONE }, none⟩
    | .error e => ⟨b, some e⟩
  else ⟨b, some .assertion⟩

/-- boardeditor.py:142-147 -/
def pickupDice (b : Board) : Step Board :=
  let b1 := { b with rolled := (0, 0) }
  match getOpp b.onAction with
  | .error e => ⟨b1, some e⟩
  | .ok a =>
    let b2 := { b1 with onAction := a }
    match getOpp b.onInnerAction with
    | .error e => ⟨b2, some e⟩
    | .ok i => ⟨{ b2 with onInnerAction := i }, none⟩

end Board
end Bglib
