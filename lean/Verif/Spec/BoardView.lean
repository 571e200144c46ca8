import Verif.Model.Editor
import Verif.Spec.Rules
/-
How a board record is read by the specification: whose rows are the mover's, and what one legal
chequer movement, or a whole play, does to a board.
-/
namespace Bglib.Spec

/-- Row of the player on action (0 = you, 1 = him). -/
def mine (b : Board) : List Int := if b.onAction = 0 then b.position.1 else b.position.2
/-- Row of the player not on action. -/
def theirs (b : Board) : List Int := if b.onAction = 0 then b.position.2 else b.position.1

/-- A board with a player on action and two physically possible rows. -/
structure Valid (b : Board) : Prop where
  turn : b.onAction = 0 ∨ b.onAction = 1
  mine_row : Row (mine b)
  theirs_row : Row (theirs b)

/-- `b'` is the board after the legal movement `pm` on `b`. -/
structure StepTo (b : Board) (pm : PartialMove) (b' : Board) : Prop where
  legal : LegalStep (mine b) (theirs b) pm.die pm.src pm.dest pm.isHitting
  len1 : (mine b').length = 25
  len2 : (theirs b').length = 25
  mover : ∀ i < 25, cnt (mine b') i = moverAfter (mine b) pm.src pm.dest i
  other : ∀ i < 25, cnt (theirs b') i = otherAfter (theirs b) pm.dest pm.isHitting i
  frame : b' = { b with position := b'.position }

/-- `b'` is the board after the legal movements `pms`, one after the other, on `b`. -/
inductive PlayTo : Board → List PartialMove → Board → Prop
  | nil (b : Board) : PlayTo b [] b
  | cons {b b1 b2 : Board} {pm : PartialMove} {pms : List PartialMove} :
      StepTo b pm b1 → PlayTo b1 pms b2 → PlayTo b (pm :: pms) b2

/-- Number of bear-offs in a play. -/
def offs (pms : List PartialMove) : Int := (pms.filter (fun pm => pm.dest = -1)).length

end Bglib.Spec
