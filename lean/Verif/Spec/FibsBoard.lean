import Verif.Spec.Cookie
import Verif.Spec.Encodings
/-
The board lines of a FIBS session.
-/
namespace Bglib.Spec

/-- The signs of the name of a player. -/
def nameSign (c : Char) : Bool :=
  ('a' ≤ c && c ≤ 'z') || ('A' ≤ c && c ≤ 'Z') || c == '_' || c == '<' || c == '>'

def IsName (s : Text) : Prop := s ≠ [] ∧ ∀ c ∈ s, nameSign c = true

/-- A board line as FIBS sends it: two names and numbers. -/
def BoardLine (s : Text) : Prop :=
  ∃ you him nums, IsName you ∧ IsName him ∧ nums ≠ [] ∧ s = fibsLine you him nums

/-- The message begins like a board line. -/
def LikeBoard (s : Text) : Prop := ∃ r, s = ['b','o','a','r','d',':'] ++ r

/-- `a` is in the list, and `b` does not come before it. -/
def Before (a b : Text) (l : List Text) : Prop := ∃ u v, l = u ++ a :: v ∧ b ∉ u

end Bglib.Spec
