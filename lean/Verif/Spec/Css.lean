import Verif.Model.Image
/-
How a style rule is written on one line, stated without the patterns of the code.
-/
namespace Bglib.Spec
open Bglib Bglib.Img

/-- Letters and `_`. -/
def Letter (c : Char) : Prop := c = '_' ∨ ('a' ≤ c ∧ c ≤ 'z') ∨ ('A' ≤ c ∧ c ≤ 'Z')

/-- Letters, digits, `_` and `-`. -/
def NameChar (c : Char) : Prop := Letter c ∨ ('0' ≤ c ∧ c ≤ '9') ∨ c = '-'

/-- A text that is not empty and whose characters all satisfy `P`. -/
def Word (P : Char → Prop) (t : Text) : Prop := t ≠ [] ∧ ∀ c ∈ t, P c

def blanks (n : Nat) : Text := List.replicate n ' '

/-- `element[name=value]:data(text)` where the two parts after the element may be absent. -/
def writeSelector (s : Selector) : Text :=
  s.element ++
  (match s.attr with
   | some (n, v) => '[' :: n ++ '=' :: v ++ [']']
   | none => []) ++
  (match s.data with
   | some d => t!":data(" ++ d ++ [')']
   | none => [])

/-- Selectors that can be written. -/
structure GoodSelector (s : Selector) : Prop where
  element : Word Letter s.element
  attr : ∀ n v, s.attr = some (n, v) → Word NameChar n ∧ Word NameChar v
  data : ∀ d, s.data = some d → Word (fun c => c ≠ ')' ∧ c ≠ ' ' ∧ c ≠ '{') d

/-- Selectors with blanks between them, and maybe behind. -/
inductive Selectors : List Selector → Text → Prop
  | one (s : Selector) (n : Nat) (hs : GoodSelector s) : Selectors [s] (writeSelector s ++ blanks n)
  | more (s : Selector) (n : Nat) (hs : GoodSelector s) {ss : List Selector} {t : Text} (h : Selectors ss t) :
      Selectors (s :: ss) (writeSelector s ++ blanks (n + 1) ++ t)

/-- Attributes that can be written: the value has no blank, `;` or `]`. -/
structure GoodAttr (x : Text × Text) : Prop where
  name : Word NameChar x.1
  value : Word (fun c => c ≠ ' ' ∧ c ≠ ';' ∧ c ≠ ']') x.2

/-- `name: value`, with any blanks around the two. -/
def writeAttr (x : Text × Text) (a b c d : Nat) : Text :=
  blanks a ++ x.1 ++ blanks b ++ ':' :: blanks c ++ x.2 ++ blanks d

/-- Attributes with `;` between them, and maybe behind. -/
inductive Attributes : List (Text × Text) → Text → Prop
  | none (n : Nat) : Attributes [] (blanks n)
  | one (x : Text × Text) (a b c d : Nat) (hx : GoodAttr x) : Attributes [x] (writeAttr x a b c d)
  | more (x : Text × Text) (a b c d : Nat) (hx : GoodAttr x) {xs : List (Text × Text)} {t : Text}
      (h : Attributes xs t) : Attributes (x :: xs) (writeAttr x a b c d ++ ';' :: t)

/-- A rule on a line: selectors, then attributes in braces, then anything without `}` and `]`. -/
inductive RuleLine : List Selector → List (Text × Text) → Text → Prop
  | mk (n : Nat) {ss : List Selector} {xs : List (Text × Text)} {p b rest : Text} (hs : Selectors ss p)
      (hx : Attributes xs b) (hb : b ≠ []) (hr : ∀ c ∈ rest, c ≠ '}' ∧ c ≠ ']') :
      RuleLine ss xs (blanks n ++ p ++ '{' :: b ++ '}' :: rest)

/-- The lines of a style sheet with the rules they hold: lines with a rule, and lines without `{`. -/
inductive Sheet : List Text → List (List Selector × List (Text × Text)) → Prop
  | nil : Sheet [] []
  | rule {ss xs line ls rs} (h : RuleLine ss xs line) (hd : (xs.map (·.1)).Nodup) (hs : Sheet ls rs) :
      Sheet (line :: ls) ((ss, xs) :: rs)
  | other {line ls rs} (h : '{' ∉ line) (hs : Sheet ls rs) : Sheet (line :: ls) rs

end Bglib.Spec
