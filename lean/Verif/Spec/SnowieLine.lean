import Verif.Model.SnowieLine
import Verif.Spec.Snowie
/-
C73: what the lines of a match record look like, and a record as it is written.
-/
namespace Bglib.Spec
open Bglib Bglib.Snowie

/-- A number as written: at least one digit. -/
def Digits (d : Text) : Prop := d ≠ [] ∧ ∀ c ∈ d, '0' ≤ c ∧ c ≤ '9'

/-- ` 7 point match`, and anything. -/
def IsMatchLength (t : Text) : Prop := ∃ d rest, Digits d ∧ t = t!" " ++ d ++ t!" point match" ++ rest

/-- Blanks, `Game 3`, and anything. -/
def IsGameHeader (t : Text) : Prop :=
  ∃ n d rest, Digits d ∧ t = List.replicate n ' ' ++ t!"Game " ++ d ++ rest

/-- `name : 3` or `name,1722 : 3`; there is no comma or colon in the name. -/
def IsPlayer (t : Text) : Prop :=
  ∃ name rating score, name ≠ [] ∧ (∀ c ∈ name, c ≠ ',' ∧ c ≠ ':') ∧ (rating = [] ∨ ∃ r, Digits r ∧ rating = ',' :: r) ∧
    Digits score ∧ t = name ++ rating ++ t!" : " ++ score

/-- A blank, a player, blanks, a player, and anything. -/
def IsPlayerHeader (t : Text) : Prop :=
  ∃ a n b rest, IsPlayer a ∧ IsPlayer b ∧ t = t!" " ++ a ++ List.replicate n ' ' ++ b ++ rest

/-- Blanks, a number, `) `, and anything. -/
def IsMoves (k : Nat) (t : Text) : Prop :=
  ∃ n d rest, Digits d ∧ pyInt d = some (k : Int) ∧ t = List.replicate n ' ' ++ d ++ t!") " ++ rest

/-- Blanks, `Wins 3 point`, and anything. -/
def IsResult (t : Text) : Prop :=
  ∃ n d rest, Digits d ∧ t = List.replicate n ' ' ++ t!"Wins " ++ d ++ t!" point" ++ rest

/-- Nothing but blanks. -/
def IsBlank (t : Text) : Prop := ∀ c ∈ t, isSpace c = true

/-! A record as FIBS and the like write it -/

/-- A player at the beginning of a game: `nori,1722 : 3`. -/
structure Seat where
  name : Text
  rating : Option Nat
  score : Nat

def Seat.text (s : Seat) : Text :=
  s.name ++ (match s.rating with | some r => ',' :: decimal r | none => []) ++ t!" : " ++ decimal s.score

/-- A name of any words without comma and colon. -/
def Seat.Good (s : Seat) : Prop := s.name ≠ [] ∧ ∀ c ∈ s.name, c ≠ ',' ∧ c ≠ ':'

/-- The name does not begin like `Game 3` or `7 point match`. -/
def Seat.Clear (s : Seat) : Prop := ¬ IsGameHeader (' ' :: s.name) ∧ ¬ IsMatchLength (' ' :: s.name)

/-- A game: what stands behind the numbers is any text, see `Game.Good`. -/
structure Game where
  number : Nat
  players : Seat × Seat
  gap : Nat
  /-- blanks and text -/
  turns : List (Nat × Text)
  /-- blanks and points -/
  result : Option (Nat × Nat)

/-- Blanks, `3) ` and the text. -/
def turnLine (n : Nat) (t : Nat × Text) : Text :=
  List.replicate t.1 ' ' ++ decimal n ++ t!") " ++ t.2 ++ t!"\n"

/-- The turns, numbered. -/
def turnLines (n : Nat) : List (Nat × Text) → List Text
  | [] => []
  | t :: l => turnLine n t :: turnLines (n + 1) l

/-- The lines of a game. -/
def Game.lines (g : Game) : List Text :=
  [t!" Game " ++ decimal g.number ++ t!"\n",
    t!" " ++ g.players.1.text ++ List.replicate g.gap ' ' ++ g.players.2.text ++ t!"\n"] ++
  turnLines 1 g.turns ++
  (match g.result with
    | some (b, p) => [List.replicate b ' ' ++ t!"Wins " ++ decimal p ++ t!" points\n"]
    | none => []) ++ [t!"\n"]

/-- There are turns, and in none of them a colon between blanks (the first of which may be the one behind the number). -/
def Game.Good (g : Game) : Prop :=
  (g.players.1.Good ∧ g.players.1.Clear) ∧ g.players.2.Good ∧ g.turns ≠ [] ∧ ∀ t ∈ g.turns, ¬ t!" : " <:+: ' ' :: t.2

/-- The lines of a record. -/
def recordLines (length : Nat) (gs : List Game) : List Text :=
  (t!" " ++ decimal length ++ t!" point match\n") :: t!"\n" :: (gs.map Game.lines).flatten

end Bglib.Spec
