import Verif.Model.Tracer
/-
Vocabulary for C70: what an entry of a recorded game says.
-/
namespace Bglib.Spec

/-- The letter of a record for a player: X is `YOU`, O is `HIM`. -/
def letterOf (who : Int) : Option Text :=
  if who = 0 then some t!"X" else if who = 1 then some t!"O" else none

/-- The entry is one of the five kinds. -/
def Kind (a : Text) : Prop :=
  a = t!"resign" ∨ a = t!"move" ∨ a = t!"take" ∨ a = t!"drop" ∨ a = t!"double"

/-- The entry tells a kind, a position, and names the player who has to act on the board. -/
def Entry (b : Board) (d : ActionDict) : Prop :=
  (∃ a, d.action = some a ∧ Kind a) ∧ d.board ≠ none ∧ d.player ≠ none ∧ d.player = letterOf b.onAction

end Bglib.Spec
