import Verif.Model.Text
import Verif.Model.Regex
/-
FIBS messages about dice, scores and resignations.
-/
namespace Bglib.Spec
open Bglib

/-- A character of a player's name. -/
def NameLetter (c : Char) : Prop := ('a' ≤ c ∧ c ≤ 'z') ∨ ('A' ≤ c ∧ c ≤ 'Z') ∨ c = '_' ∨ c = '<' ∨ c = '>'

/-- A player's name. -/
def PlayerName (n : Text) : Prop := n ≠ [] ∧ ∀ c ∈ n, NameLetter c

/-- FIBS_PlayerRolls -/
def rollsMessage (name : Text) (a b : Nat) : Text := name ++ t!" rolls " ++ decimal a ++ t!" and " ++ decimal b ++ t!"."

/-- FIBS_MatchStart -/
def scoreMessage (y h l : Nat) : Text :=
  t!"Score is " ++ decimal y ++ t!"-" ++ decimal h ++ t!" in a " ++ decimal l ++ t!" point match."

/-- FIBS_PlayerWantsToResign -/
def resignMessage (name : Text) (n : Nat) : Text :=
  name ++ t!" wants to resign. You will win " ++ decimal n ++ t!" points. Type 'accept' or 'reject'."

end Bglib.Spec
