import Verif.Model.HtmlCompare
/-
What C72 talks about: HTML as text and tags with simple attributes.
-/
namespace Bglib.Spec
open Bglib.Doc

def AttrNameChar (c : Char) : Prop := ('a' ≤ c ∧ c ≤ 'z') ∨ ('A' ≤ c ∧ c ≤ 'Z')
def ElementChar (c : Char) : Prop := AttrNameChar c ∨ ('0' ≤ c ∧ c ≤ '9') ∨ c = '/'
def AttrValueChar (c : Char) : Prop := AttrNameChar c ∨ ('0' ≤ c ∧ c ≤ '9') ∨ c ∈ [':', ';', '.', '/', '-']

/-- A tag: the element (with a slash in front if it closes one) and attributes. -/
structure Tag where
  element : Text
  attrs : List (Text × Text)

/-- HTML: text, then tags with text behind each. -/
structure Html where
  lead : Text
  body : List (Tag × Text)

def Tag.write (t : Tag) : Text :=
  '<' :: t.element ++ t.attrs.flatMap (fun x => ' ' :: x.1 ++ '=' :: '"' :: x.2 ++ ['"']) ++ ['>']

def Html.write (h : Html) : Text := h.lead ++ h.body.flatMap fun x => x.1.write ++ x.2

/-- Names and values of the letters the comparison knows. -/
def Tag.Good (t : Tag) : Prop :=
  (t.element ≠ [] ∧ ∀ c ∈ t.element, ElementChar c) ∧
  ∀ x ∈ t.attrs, (x.1 ≠ [] ∧ ∀ c ∈ x.1, AttrNameChar c) ∧ (x.2 ≠ [] ∧ ∀ c ∈ x.2, AttrValueChar c)

/-- Text without brackets and entities. -/
def PlainText (t : Text) : Prop := '<' ∉ t ∧ '>' ∉ t ∧ '&' ∉ t

def Html.Good (h : Html) : Prop := PlainText h.lead ∧ ∀ x ∈ h.body, x.1.Good ∧ PlainText x.2

/-- Text as it is compared: without newlines and without blanks around it. -/
def trimmed (t : Text) : Text := strip (t.filter (· ≠ '\n'))

/-- What is compared: the tags, and the trimmed texts behind them; text in front if there is any. -/
def Html.shown (h : Html) : List Token :=
  (if h.lead.filter (· ≠ '\n') = [] then [] else [.text (trimmed h.lead)]) ++
    h.body.flatMap fun x => [.tag x.1.element x.1.attrs, .text (trimmed x.2)]

/-- The items of a dictionary, in any order. -/
def ItemsOf (items : List (Text × Text) → List (Text × Text)) : Prop := ∀ l, (items l).Perm (attrDict l)

/-- The same elements in the same order, with the same attributes, and the same texts behind them. -/
def SameBody : List (Tag × Text) → List (Tag × Text) → Prop
  | [], [] => True
  | x :: g, y :: h => x.1.element = y.1.element ∧ (attrDict x.1.attrs).Perm (attrDict y.1.attrs) ∧
      trimmed x.2 = trimmed y.2 ∧ SameBody g h
  | _, _ => False

/-- The same HTML but for newlines, and blanks around texts. -/
def SameHtml (g h : Html) : Prop :=
  ((g.lead.filter (· ≠ '\n') = [] ↔ h.lead.filter (· ≠ '\n') = []) ∧ trimmed g.lead = trimmed h.lead) ∧
    SameBody g.body h.body

end Bglib.Spec
