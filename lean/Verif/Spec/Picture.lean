import Verif.Model.Image
import Verif.Spec.Rules
import Verif.Spec.Actions
/-
The words used in the statements about the picture of a board (C39, C61).
-/
namespace Bglib.Spec
open Bglib Bglib.Img

/-- The texts of the children of a kind. -/
def leaves (n : EName) (t : Tree) : List (List Text) :=
  (t.kids.filter fun k => k.elem.name = n).map (·.elem.data)

/-- The texts of the chequers of a player in a place. -/
def chequersOf (p : Int) (t : Tree) : List (List Text) :=
  (t.kids.filter fun k => k.elem.name = .chequer && k.elem.get t!"player" = some (.str (playerText p))).map
    (·.elem.data)

/-- `n` chequers are shown: one element with the number, none for 0. -/
def shown' (n : Int) : List (List Text) := if n = 0 then [] else [[pyStr n]]

/-- The number shown. -/
def numberOf (l : List (List Text)) : Int := (l.map fun d => (d.head?.bind pyInt).getD 0).sum

/-- The field of a player, and so on. -/
def side (p : Int) (x : Tree × Tree) : Tree := if p = 0 then x.1 else x.2

/-- All chequers of a player in the picture. -/
def totalShown (p : Int) (t : ETree) : Int :=
  (t.points.map fun x => numberOf (chequersOf p x)).sum + numberOf (chequersOf p t.bar.1) +
    numberOf (chequersOf p t.bar.2) + numberOf (chequersOf p t.home.1) + numberOf (chequersOf p t.home.2)

/-- The cubes: in the homes, in the holder and in the fields. -/
def cubesShown (t : ETree) : List (List (List Text)) :=
  [leaves .cube t.home.1, leaves .cube t.home.2, leaves .cube t.cubeholder, leaves .cube t.field.1,
   leaves .cube t.field.2]

/-- A board whose attributes have sensible values. -/
structure Sensible (b : Board) : Prop where
  you : b.position.1.length = 25
  him : b.position.2.length = 25
  owner : b.cubeOwner = 0 ∨ b.cubeOwner = 1 ∨ b.cubeOwner = 3
  turns : TurnsOk b

/-- Somebody has to move, to roll, to answer a double or a resignation. -/
def Drawable (b : Board) : Prop :=
  b.rolled ≠ (0, 0) ∨ b.onInnerAction = b.onAction ∨ b.doubled = true ∨
    (1 ≤ b.resignOffer ∧ b.resignOffer ≤ 3)

/-- A double waits for its answer. -/
def Pending (b : Board) : Prop := b.doubled = true ∧ b.onInnerAction ≠ b.onAction

/-- What can happen to the board of a game. -/
inductive GameStep : Board → Board → Prop where
  | roll (b : Board) (who d1 d2 : Int) : b.isLegalToRoll who = true → GameStep b { b with rolled := (d1, d2) }
  | move (b b' : Board) (pm : PartialMove) : b.makePartialMove pm = .ok b' → GameStep b b'
  | act (b : Board) (e : Edit) :
      (match e with | .double _ | .take _ | .drop _ | .offerResign _ _ | .acceptResign _ | .rejectResign _
                    | .pickupDice | .flip => True | _ => False) → (e.run b).err = none → GameStep b (e.run b).st

/-- The boards of a game, from a board with the initial decision. -/
inductive InGame : Board → Prop where
  | start (b : Board) : Sensible b → b.onInnerAction = b.onAction → b.doubled = false → b.resignOffer = 0 → InGame b
  | step (b b' : Board) : InGame b → GameStep b b' → InGame b'

end Bglib.Spec
