import Verif.Spec.BoardView
import Verif.Model.Heap
/-
The course of one game: what the players do, from the first board to the last, when the chequers are moved
according to the rules and the dice have six sides.
-/
namespace Bglib.Spec

/-- A board that can lie on a table: at most fifteen chequers a side, no point held by both, dice not rolled or
rolled, players for the turns. -/
structure Table (b : Board) : Prop where
  row1 : Row b.position.1
  row2 : Row b.position.2
  fifteen1 : total b.position.1 ≤ 15
  fifteen2 : total b.position.2 ≤ 15
  apart : ∀ i < 24, cnt b.position.1 i = 0 ∨ cnt b.position.2 (23 - i) = 0
  owner : b.cubeOwner = 0 ∨ b.cubeOwner = 1 ∨ b.cubeOwner = 3
  turn : b.onAction = 0 ∨ b.onAction = 1
  inner : b.onInnerAction = 0 ∨ b.onInnerAction = 1
  die1 : 0 ≤ b.rolled.1 ∧ b.rolled.1 ≤ 6
  die2 : 0 ≤ b.rolled.2 ∧ b.rolled.2 ≤ 6
  resign : 0 ≤ b.resignOffer ∧ b.resignOffer ≤ 3

/-- What happens while a game goes on: somebody rolls, moves a chequer, takes the last movement back, doubles,
takes, offers to resign, refuses that, picks up the dice, or the board is turned round. -/
inductive Happens : Board → Board → Prop where
  | roll (b : Board) (who d1 d2 : Int) : b.isLegalToRoll who = true → 1 ≤ d1 ∧ d1 ≤ 6 → 1 ≤ d2 ∧ d2 ≤ 6 →
      Happens b { b with rolled := (d1, d2) }
  | move (b b' : Board) (pm : PartialMove) :
      LegalStep (mine b) (theirs b) pm.die pm.src pm.dest pm.isHitting → b.makePartialMove pm = .ok b' → Happens b b'
  | back (a b b' : Board) (pm : PartialMove) : Table a → StepTo a pm b →
      b.makePartialMove ⟨pm.die, pm.dest, pm.src, pm.isHitting⟩ = .ok b' → Happens b b'
  | act (b : Board) (e : Edit) :
      (match e with | .double _ | .take _ | .offerResign _ _ | .rejectResign _ | .pickupDice | .flip => True
                    | _ => False) → (e.run b).err = none → Happens b (e.run b).st

/-- The boards seen while the game that began with `first` goes on. -/
inductive Course (first : Board) : Board → Prop where
  | first : Course first first
  | next (b b' : Board) : Course first b → Happens b b' → Course first b'

/-- The game ends: a double is refused or a resignation accepted. -/
def Ends (b b' : Board) : Prop := ∃ who, b.drop who = ⟨b', none⟩ ∨ b.acceptResign who = ⟨b', none⟩

/-- A board of the game that began with `first`, its last one included. -/
def OfGame (first b : Board) : Prop := Course first b ∨ ∃ c, Course first c ∧ Ends c b

end Bglib.Spec
