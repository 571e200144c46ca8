import Verif.Model.Image
/-
The words used in the statements about style rules and attributes (C37, C38).
-/
namespace Bglib.Spec
open Bglib Bglib.Img

/-- The selectors fit elements of the list, in the same order, with any elements in between. -/
inductive Embeds (fits : Selector → Elem → Prop) : List Selector → List Elem → Prop where
  | nil (es : List Elem) : Embeds fits [] es
  | take (p : Selector) (ps : List Selector) (e : Elem) (es : List Elem) :
      fits p e → Embeds fits ps es → Embeds fits (p :: ps) (e :: es)
  | skip (ps : List Selector) (e : Elem) (es : List Elem) : Embeds fits ps es → Embeds fits ps (e :: es)

/-- A selector fits an element: the element has the name, the attribute has the value written, and the
text is one of the texts of the element. -/
def SelFits (s : Selector) (e : Elem) : Prop :=
  e.name.text = s.element ∧
  (∀ n t, s.attr = some (n, t) → ∃ v c, e.get n = some v ∧ attlist e.name n = some c ∧
    c.kind.parse none t = .ok v) ∧
  (∀ d, s.data = some d → d ∈ e.data)

/-- The attribute of the element, if the selector asks for it, can be compared with what is written. -/
def Comparable (s : Selector) (e : Elem) : Prop :=
  ∀ n t v c, s.attr = some (n, t) → e.get n = some v → attlist e.name n = some c →
    ∃ w, c.kind.parse none t = .ok w

/-- The nearest value: of the element itself or else of the nearest ancestor that has one. -/
def nearest (n : Text) (path : List Elem) : Option Value := path.findSome? (·.get n)

/-- The value an attribute should have. -/
def effective (c : AttrClass) (n : Text) (path : List Elem) : Py Value :=
  match (if c.inherit then nearest n path else path.head?.bind (·.get n)) with
  | some v => .ok v
  | none => match c.default with
    | some v => .ok v
    | none => .error .attributeError

end Bglib.Spec
