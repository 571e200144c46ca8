import Verif.Model.MoveFactory
import Verif.Model.Util
import Verif.Model.Regex
/-
Evidence for the model of boards and moves: the tests the authors wrote, as lists of steps.
-/
namespace Bglib.Check
open Bglib

/-- A step of a test: something done, or something expected. -/
inductive TestStep where
  /-- a new board -/
  | start (b : Board)
  /-- an attribute is set -/
  | edit (f : Board → Board)
  /-- a method that must not raise -/
  | act (f : Board → Step Board)
  | holds (p : Board → Bool)
  /-- a movement is made up, and made -/
  | piece (pm : PartialMove)
  | move
  /-- `MoveFactory(b)` -/
  | factory
  /-- questions; the answer is kept -/
  | source (p : Text)
  | dest (p : Text)
  | multiple (p q : Text)
  | undoes (p q : Text)
  | point (p : Text)
  /-- the answer is added -/
  | append
  | add
  /-- the answer as text, or an error -/
  | found (t : Option Text)
  | something
  | nothing
  /-- the recorded move, the dice, the highest die -/
  | recorded (t : Option Text)
  | dice (l : List Nat)
  | best (n : Int)
  | pickup (b : Bool)
  /-- `has_chequer_to_move` gives the number, which the model takes as a truth value -/
  | chequers (p : Text) (n : Nat)

/-- `Move.__str__`, move.py:95-99, 128-132, of a move that is not empty -/
def movesText : List PartialMove → Option Text
  | [] => some []
  | pm :: l =>
    match moveNtop pm.src, moveNtop pm.dest, movesText l with
    | .ok s, .ok d, some r =>
      let t := s ++ '/' :: d ++ if pm.isHitting then ['*'] else []
      some (if l = [] then t else t ++ t!", " ++ r)
    | _, _, _ => none

structure TestState where
  f : Factory
  answer : Option (List PartialMove)

/-- An answer that is no exception. -/
def answered (s : TestState) : Factory.Asked (Option (List PartialMove)) → Option TestState
  | ⟨b, .ok r⟩ => some ⟨{ s.f with board := b }, r⟩
  | _ => none

def expect (s : TestState) (b : Bool) : Option TestState := if b then some s else none

/-- One step; `none`: the test fails. -/
def TestStep.run (s : TestState) : TestStep → Option TestState
  | .start b => some ⟨⟨b, [], {}⟩, none⟩
  | .edit f => some { s with f := { s.f with board := f s.f.board } }
  | .act f => match f s.f.board with
    | ⟨b, none⟩ => some { s with f := { s.f with board := b } }
    | _ => none
  | .holds p => expect s (p s.f.board)
  | .piece pm => some { s with answer := some [pm] }
  | .move => match s.answer with
    | some [pm] => match s.f.board.makePartialMove pm with
      | .ok b => some { s with f := { s.f with board := b } }
      | _ => none
    | _ => none
  | .factory => some { s with f := Factory.new s.f.board }
  | .source p => match movePton p with
    | .ok n => answered s ⟨s.f.board, (Factory.fromSource s.f.board s.f.avail n).map fun r => r.map fun x => [x]⟩
    | _ => none
  | .dest p => match movePton p with
    | .ok n => answered s ⟨s.f.board, (Factory.fromDest s.f.board s.f.avail n).map fun r => r.map fun x => [x]⟩
    | _ => none
  | .multiple p q => match movePton p, movePton q with
    | .ok m, .ok n => answered s (Factory.multiplePms s.f.board s.f.avail m n)
    | _, _ => none
  | .undoes p q => match movePton p, movePton q with
    | .ok m, .ok n => answered s (s.f.multipleUndoes m n)
    | _, _ => none
  | .point p => match movePton p with
    | .ok n => answered s (s.f.makingPoint n)
    | _ => none
  | .append => match s.answer with
    | some [pm] => match s.f.append pm with
      | ⟨f, none⟩ => some { s with f := f }
      | _ => none
    | _ => none
  | .add => match s.answer with
    | some l => match s.f.addAll l with
      | ⟨f, none⟩ => some { s with f := f }
      | _ => none
    | none => none
  | .found t => expect s (s.answer.bind movesText == t)
  | .something => expect s s.answer.isSome
  | .nothing => expect s s.answer.isNone
  | .recorded t => expect s (movesText s.f.move == t)
  | .dice l => expect s ([s.f.avail.d1, s.f.avail.d2, s.f.avail.d3, s.f.avail.d4, s.f.avail.d5, s.f.avail.d6] == l)
  | .best n => expect s (s.f.avail.getMax == some n)
  | .pickup b => match s.f.isLegalToPickupDice with
    | ⟨b', .ok r⟩ => expect { s with f := { s.f with board := b' } } (r == b)
    | _ => none
  | .chequers p n => match movePton p with
    | .ok i => expect s (s.f.board.hasChequerToMove i == .ok (decide (n > 0)) && s.f.board.position.1[i.toNat]? == some (n : Int))
    | _ => none

def TestStep.runAll (s : TestState) : List TestStep → Option TestState
  | [] => some s
  | t :: l => match t.run s with
    | some s' => runAll s' l
    | none => none

/-- The test passes. -/
def passes (l : List TestStep) : Bool := (TestStep.runAll ⟨⟨{}, [], {}⟩, none⟩ l).isSome

end Bglib.Check
