import Verif.Model.Heap
/-
What it means to look at a game from the other side of the table (C101).
-/
namespace Bglib.Spec
open Bglib

/-- The same seat seen from the other side: the players change places, the centre stays. -/
def across (seat : Int) : Int := if seat = 0 then 1 else if seat = 1 then 0 else seat

/-- The board as the other player sees it: everything that belongs to a player changes places. -/
def mirrored (b : Board) : Board :=
  { b with
    position := (b.position.2, b.position.1)
    score := (b.score.2, b.score.1)
    cubeOwner := across b.cubeOwner
    onAction := across b.onAction
    onInnerAction := across b.onInnerAction }

/-- Two players play: the turn is one player's, the decision is one player's, and the cube is a player's or in the
centre. -/
structure Seated (b : Board) : Prop where
  turn : b.onAction = 0 ∨ b.onAction = 1
  inner : b.onInnerAction = 0 ∨ b.onInnerAction = 1
  owner : b.cubeOwner = 0 ∨ b.cubeOwner = 1 ∨ b.cubeOwner = 3

/-- The same value of an attribute seen from the other side. -/
def mirroredAttr : Attr → Attr
  | .position v => .position (v.2, v.1)
  | .cubeOwner v => .cubeOwner (across v)
  | .onAction v => .onAction (across v)
  | .onInnerAction v => .onInnerAction (across v)
  | .score v => .score (v.2, v.1)
  | a => a

/-- The same action seen from the other side.  (Movements are counted from the mover, so they stay as they are.) -/
def mirroredEdit : Edit → Edit
  | .set a => .set (mirroredAttr a)
  | .double w => .double (across w)
  | .take w => .take (across w)
  | .drop w => .drop (across w)
  | .offerResign w n => .offerResign (across w) n
  | .acceptResign w => .acceptResign (across w)
  | .rejectResign w => .rejectResign (across w)
  | e => e

/-- The points of the player whose turn it is. -/
def turnScore (b : Board) : Int := if b.onAction = 0 then b.score.1 else b.score.2

/-- A double by `who` at the score where the code treats the players differently: the points the player has and those
of the cube are just the length of the match. -/
structure AtLimit (b : Board) (who : Int) : Prop where
  score : turnScore b = b.matchLength - 2 ^ b.cube
  isMatch : b.matchLength ≠ 0
  turn : b.onAction = who
  inner : b.onInnerAction = who
  running : b.gameState = ON_GOING
  notRolled : b.rolled = (0, 0)
  noCrawford : b.crawford = false
  notDoubled : b.doubled = false

/-- Keeps the players' attributes players. -/
def keepsSeats : Edit → Prop
  | .set (.cubeOwner v) => v = 0 ∨ v = 1 ∨ v = 3
  | .set (.onAction v) => v = 0 ∨ v = 1
  | .set (.onInnerAction v) => v = 0 ∨ v = 1
  | _ => True

end Bglib.Spec
