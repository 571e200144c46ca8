import Verif.Model.Heap
/-
What the game actions are for: who decides next, and what changes.
-/
namespace Bglib.Spec

/-- The other player. -/
def other (who : Int) : Int := 1 - who

/-- The two turn fields name players. -/
def TurnsOk (b : Board) : Prop :=
  (b.onAction = 0 ∨ b.onAction = 1) ∧ (b.onInnerAction = 0 ∨ b.onInnerAction = 1)

/-- Who performs the action. -/
def actor : Edit → Option Int
  | .double w | .take w | .drop w | .offerResign w _ | .acceptResign w | .rejectResign w => some w
  | _ => none

/-- The board after an accepted action: the doubler's opponent has to answer the double; a take returns
the decision to the player on turn; a resignation has to be answered by the opponent; a refused
resignation is withdrawn and the offerer decides again; lifting the dice passes the turn; drop and
accepted resignation end the game, with the points `you`, `him` awarded.  Nothing else changes. -/
def after (b : Board) : Edit → Board
  | .double w => { b with onInnerAction := other w, doubled := true }
  | .take _ => { b with onInnerAction := b.onAction }
  | .offerResign w k => { b with onInnerAction := other w, resignOffer := k }
  | .rejectResign w => { b with onInnerAction := other w, resignOffer := 0 }
  | .pickupDice => { b with onAction := other b.onAction, onInnerAction := other b.onInnerAction,
                            rolled := (0, 0) }
  | .drop w => { b with
      gameState := 4
      score := if w = 0 then (b.score.1, b.score.2 + 2 ^ b.cube) else (b.score.1 + 2 ^ b.cube, b.score.2) }
  | .acceptResign w => { b with
      gameState := 3
      score := if w = 0 then (b.score.1 + b.resignOffer * 2 ^ b.cube, b.score.2)
        else (b.score.1, b.score.2 + b.resignOffer * 2 ^ b.cube) }
  | _ => b

/-- When an action other than a double is in order. -/
def inOrder (b : Board) : Edit → Prop
  | .take w | .drop w => b.doubled = true ∧ b.onInnerAction ≠ b.onAction ∧ b.onInnerAction = w
  | .offerResign w k => b.onAction = w ∧ b.onInnerAction = w ∧ (k = 1 ∨ k = 2 ∨ k = 3)
  | .acceptResign w | .rejectResign w => (1 ≤ b.resignOffer ∧ b.resignOffer ≤ 3) ∧ b.onInnerAction = w
  | .pickupDice => True
  | _ => False

end Bglib.Spec
