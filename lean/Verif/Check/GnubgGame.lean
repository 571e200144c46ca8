import Verif.Model.GnubgId
import Verif.Model.MoveFactory
import Verif.Model.Regex
/-
Evidence for the model of moves: the game recorded by GNU Backgammon in `record/gnubg_test.py`.
-/
namespace Bglib.Check
open Bglib

/-- The records with the action `move`: the position, the dice and the movements.  (The tests do not use them.) -/
def gnubgGame : List (Text × (Int × Int) × List (Int × Int)) := [
  (t!"4HPwATDgc/ABMA", (1, 3), [(7, 4), (5, 4)]),
  (t!"sGfwATDgc/ABMA", (1, 2), [(12, 10), (5, 4)]),
  (t!"0HPkATCwZ/ABMA", (6, 3), [(23, 20), (12, 6)]),
  (t!"sNfgASLQc+QBMA", (2, 3), [(7, 4), (5, 3)]),
  (t!"aGfkATCw1+ABUA", (1, 2), [(24, 22), (7, 6)]),
  (t!"sLfgAShoZ+QBMA", (1, 3), [(5, 2), (3, 2)]),
  (t!"zGbkATCwt+ABKA", (3, 4), [(23, 20), (12, 8)]),
  (t!"sLfCARLMZuQBMA", (4, 5), [(12, 8), (8, 3)]),
  (t!"rM3IATCwt8IBSA", (3, 4), [(24, 20), (7, 4)]),
  (t!"cG/CARLMZuQAWA", (5, 5), []),
  (t!"zGbkAFhwb8IBEg", (3, 5), [(22, 17), (20, 17)]),
  (t!"cG/CwQDMZuQAWA", (1, 2), [(24, 23), (12, 10)]),
  (t!"zGbMADhwb8LBAA", (6, 4), [(12, 8), (12, 6)]),
  (t!"cO8MwQDMZswAOA", (2, 5), [(23, 21), (21, 16)]),
  (t!"zGbMEDBw7wzBAA", (2, 2), [(12, 10), (10, 8), (5, 3), (5, 3)]),
  (t!"2O0cwADMZswQMA", (5, 3), [(16, 11), (11, 8)]),
  (t!"zGaZATDY7RzAAA", (1, 5), [(8, 7), (7, 2)]),
  (t!"tNsZwADMZpkBMA", (5, 4), [(8, 3), (7, 3)]),
  (t!"bJuYATC02xnAAA", (5, 4), [(8, 3), (6, 2)]),
  (t!"7G4TwABsm5gBMA", (6, 2), [(7, 1), (3, 1)]),
  (t!"tjaYATDsbhPAAA", (1, 2), [(8, 7), (7, 5)]),
  (t!"7O4GwAC2NpgBMA", (3, 5), [(10, 7), (10, 5)]),
  (t!"tnaCATDs7gbAAA", (6, 6), []),
  (t!"7O4GwAC2doIBMA", (2, 4), [(7, 3), (5, 3)]),
  (t!"ttuAATDs7gbAAA", (1, 3), [(5, 4), (4, 1)]),
  (t!"2t0GwAC224ABMA", (1, 5), [(23, 22), (12, 7)]),
  (t!"ttsEASjsbgNgQA", (1, 3), [(24, 23), (4, 1)]),
  (t!"2m0DYCC22wQBUA", (5, 3), []),
  (t!"ttsEAVDabQNgIA", (1, 5), [(17, 16), (16, 11)]),
  (t!"2m2DQCC22wAAdA", (1, 3), [(24, 23)]),
  (t!"ttsAAGzabYNAIA", (1, 4), [(11, 10), (10, 6)]),
  (t!"2m0HQCC22wAAbA", (1, 5), [(24, 23)]),
  (t!"ttsAAFzabQdAIA", (6, 4), [(23, 17), (17, 13)]),
  (t!"2m0HhAC22wAAXA", (2, 2), [(24, 22), (3, 1), (2, 0), (2, 0)]),
  (t!"O9sAADrstgNCQA", (1, 4), []),
  (t!"7LYDQkA72wAAOg", (4, 2), [(5, 3), (5, 1)]),
  (t!"e24AADrstgNCQA", (5, 5), []),
  (t!"7LYDQkB7bgAAOg", (3, 5), [(3, 0)]),
  (t!"92wAADrstgNCQA", (1, 3), [(24, 21), (17, 16)]),
  (t!"7LYDIgj3bAAAOg", (3, 4), [(4, 1), (4, 0)]),
  (t!"7zMAADrstgMiCA", (4, 4), [(16, 12), (13, 9), (9, 5), (5, 1)]),
  (t!"2m0HAgjvMwAAXA", (2, 6), [(24, 22), (22, 16)]),
  (t!"7zMACDjstgMBRA", (6, 4), [(24, 18), (21, 17)]),
  (t!"7LYDQQHvMwAIOA", (3, 4), [(16, 13), (13, 9)]),
  (t!"7zMQADjstgNBAQ", (1, 5), [(17, 16), (16, 11)]),
  (t!"7LaDAgHvMxAAOA", (1, 3), [(9, 8), (8, 5)]),
  (t!"7zMBADjstoMCQA", (1, 2), []),
  (t!"7LaDAkDvMwEAOA", (2, 3), [(5, 3), (3, 0)]),
  (t!"32cAADjstoMCQA", (2, 3), [(24, 21), (6, 4)]),
  (t!"7G6DAgjfZwAAOA", (2, 5), [(3, 1)]),
  (t!"308AADjsboMCCA", (1, 6), [(21, 20), (12, 6)]),
  (t!"7G4HAQTfDwAAXA", (2, 2), [(24, 22)]),
  (t!"3w8AADrsbgcBBA", (1, 6), [(20, 19), (19, 13)]),
  (t!"7G4HCQDfDwAAOg", (4, 5), []),
  (t!"3w8AADrsbgcJAA", (2, 6), [(11, 5), (3, 1)]),
  (t!"2u4OCADfDwAAXA", (4, 5), []),
  (t!"3w8AAFza7g4IAA", (1, 3), [(6, 5), (4, 1)]),
  (t!"tu0NCADfDwAAXA", (1, 4), [(24, 23)]),
  (t!"3w8AADy27Q0IAA", (2, 6), [(13, 7), (5, 3)]),
  (t!"ttstAADfDwAAPA", (2, 3), []),
  (t!"3w8AADy22y0AAA", (3, 4), [(6, 3), (6, 2)]),
  (t!"dm8nAADfDwAAPA", (1, 5), [(1, 0)]),
  (t!"vw8AADx2bycAAA", (6, 5), [(7, 2), (5, -1)]),
  (t!"9t4GAIDfBwAAHg", (5, 6), [(23, 17), (17, 12)]),
  (t!"vw+AADj23gYAAA", (1, 5), [(4, 3), (4, -1)]),
  (t!"9j4DAMDvAyAADg", (2, 6), [(23, 17), (12, 10)]),
  (t!"vw8gIDD2PgMAAA", (3, 4), [(3, -1), (2, -1)]),
  (t!"ds8AAPD7AAICAw", (2, 5), [(17, 15), (10, 5)]),
  (t!"vw8BCDB2zwAAAA", (1, 1), [(5, 4), (5, 4), (3, 2), (2, 1)]),
  (t!"7m4AAPD7EIAAAw", (5, 6), [(23, 17), (15, 10)]),
  (t!"vw9BQCDubgAAAA", (4, 5), [(4, -1), (3, -1)]),
  (t!"7hYAAPw+BAGBAA", (6, 5), [(17, 11), (10, 5)]),
  (t!"vw8DASDuFgAAAA", (6, 6), [(4, -1), (3, -1), (3, -1), (2, -1)]),
  (t!"bgAAwO/DQAAIAA", (6, 2), [(23, 17), (17, 15)]),
  (t!"vw8DIQBuAAAAAA", (6, 5), [(2, -1), (2, -1)]),
  (t!"DgAA8PswEAIAAA", (6, 5), [(15, 10), (11, 5)]),
  (t!"vw8HAQAOAAAAAA", (1, 5), [(1, 0), (1, -1)]),
  (t!"BQAA+H04CAAAAA", (1, 3), [(10, 9), (9, 6)])]

/-- The rows of the player to move and of the opponent. -/
def sidesOf (pid : Text) : Option (List Int × List Int) :=
  match decodePosition pid with
  | .ok (o, m) => some (m, o)
  | .error _ => none

/-- The board of a record. -/
def recordBoard (m o : List Int) (dice : Int × Int) : Board :=
  { position := (m, o), onAction := 0, onInnerAction := 0, rolled := dice, gameState := 1 }

/-- The movement of a record: the die is the distance or, for bearing off, one that is left and large enough. -/
def recordPm (b : Board) (a : Avail) (src dest : Int) : Py PartialMove := do
  let die := if 0 ≤ dest then src - dest else if a.contains (src + 1) = .ok true then src + 1 else a.getMax.getD 0
  let hit ← if 0 ≤ dest then b.isHittingToLand dest else pure false
  pure ⟨die, src, dest, hit⟩

/-- Playing the movements of a record in their order, each suggested for its source with its die. -/
def followRecord (f : Factory) : List (Int × Int) → Py Factory
  | [] => .ok f
  | (src, dest) :: rest => do
    let pm ← recordPm f.board f.avail src dest
    match ← Factory.fromSource f.board (Avail.ofRoll (pm.die, 0)) src with
    | none => throw .assertion
    | some q =>
      if q ≠ pm then throw .assertion
      else match f.append pm with
        | ⟨f', none⟩ => followRecord f' rest
        | ⟨_, some e⟩ => throw e

/-- A record and the one after it: the movements are suggested as the record has them, the dice may be picked up
then, and the chequers stand as in the next record. -/
def recordFits (r s : Text × (Int × Int) × List (Int × Int)) : Bool :=
  match sidesOf r.1, sidesOf s.1 with
  | some (m, o), some (m', o') =>
    match followRecord (Factory.new (recordBoard m o r.2.1)) r.2.2 with
    | .ok f => f.isLegalToPickupDice.res == .ok true && f.board.position == (o', m')
    | .error _ => false
  | _, _ => false

/-- The whole game of GNU Backgammon can be followed. -/
theorem gnubg_game : ((gnubgGame.zip gnubgGame.tail).all fun p => recordFits p.1 p.2) = true := by decide +kernel

example : (gnubgGame.zip gnubgGame.tail).length = 77 := by decide

end Bglib.Check
