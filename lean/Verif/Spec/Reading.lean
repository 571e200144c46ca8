import Verif.Spec.Document
/-
What a reader of a page sees: the words (C93), and how deep items are (C94).
-/
namespace Bglib.Spec.Document
open Bglib Bglib.Doc

/-! ### Words -/

/-- The words of a text, which are separated by spaces and line breaks; `word` is what has been read of one, backwards. -/
def wordsFrom (word : Text) : Text → List Text
  | [] => if word = [] then [] else [word.reverse]
  | c :: t => if c = ' ' ∨ c = '\n' then (if word = [] then [] else [word.reverse]) ++ wordsFrom [] t else wordsFrom (c :: word) t

def wordsOf (t : Text) : List Text := wordsFrom [] t

/-- The text of a page without its tags. -/
def visible (t : List Tok) : Text := t.flatMap fun
  | .text u => u
  | _ => []

/-- Lines without the marks around stretches. -/
def unmarked (ls : List Line) : Text := ls.flatMap fun l => l.flatMap Piece.text ++ ['\n']

/-- There is a space between two texts. -/
def Apart (a b : Text) : Prop := a.getLast? = some ' ' ∨ b.head? = some ' '

/-- There is a space between any two pieces. -/
def Loose : Line → Prop
  | [] | [_] => True
  | p :: q :: l => Apart p.text q.text ∧ Loose (q :: l)

/-! ### Depth -/

def isList (tag : Text) : Bool := tag = t!"ul" || tag = t!"ol"

/-- In how many lists each item of a page is. -/
def depthsFrom (d : Nat) : List Tok → List Nat
  | [] => []
  | .opening t :: r => if isList t then depthsFrom (d + 1) r else if t = t!"li" then d :: depthsFrom d r else depthsFrom d r
  | .closing t :: r => if isList t then depthsFrom (d - 1) r else depthsFrom d r
  | _ :: r => depthsFrom d r

def depths (t : List Tok) : List Nat := depthsFrom 0 t

/-- The text of a list of starred items, each indented by a number of spaces. -/
def starred (xs : List (Nat × Line)) : Text :=
  (xs.flatMap fun x => List.replicate x.1 ' ' ++ t!"* " ++ write x.2 ++ ['\n']) ++ ['\n']

/-- No item is indented by more than one space more than the one before it. -/
def Steps : List Nat → Prop
  | [] | [_] => True
  | a :: b :: r => b ≤ a + 1 ∧ Steps (b :: r)

end Bglib.Spec.Document
