import Verif.Model.Doctree
/-
Which elements of HTML may stand in which, and where there may be text (C108): XHTML 1.0 Strict, the type of document that
`bglib/doc/html.py:115-119` declares.  How many there must be, and in what order, is left out.
-/
namespace Bglib.Spec.Nesting
open Bglib Bglib.Doc

/-- Elements that are part of a line. -/
def inline : List Text := [t!"span", t!"br", t!"strong", t!"i", t!"del", t!"sub", t!"sup", t!"a", t!"img"]

/-- Elements that are blocks of their own. -/
def block : List Text :=
  [t!"div", t!"p", t!"h1", t!"h2", t!"h3", t!"ul", t!"ol", t!"dl", t!"table", t!"blockquote", t!"pre", t!"del"]

/-- Text, as it is called in the definition of the type. -/
def pcdata : Text := t!"#PCDATA"

/-- What may be in an element; `body` is the page. -/
def inside (tag : Text) : List Text :=
  if tag ∈ [t!"body", t!"blockquote"] then block
  else if tag ∈ [t!"div", t!"li", t!"dd", t!"td", t!"th", t!"del"] then pcdata :: inline ++ block
  else if tag ∈ [t!"ul", t!"ol"] then [t!"li"]
  else if tag = t!"dl" then [t!"dt", t!"dd"]
  else if tag = t!"table" then [t!"tr"]
  else if tag = t!"tr" then [t!"td", t!"th"]
  else if tag = t!"pre" then pcdata :: inline.filter (· ∉ [t!"img", t!"sub", t!"sup"])
  else if tag ∈ [t!"p", t!"h1", t!"h2", t!"h3", t!"dt", t!"a", t!"span", t!"strong", t!"i", t!"sub", t!"sup"] then
    pcdata :: inline
  else []

/-- Text of spaces and line ends counts for nothing. -/
def nothing (t : Text) : Bool := t.all fun c => c = ' ' ∨ c = '\n' ∨ c = '\t' ∨ c = '\r'

/-- Everything is in an element in which it may be, and no link is in a link.  The first argument says what may be where,
the second which elements are around, the innermost first. -/
def Obeys (may : Text → List Text) : List Text → List Tok → Bool
  | _, [] => true
  | p :: ps, .opening t :: r => t ∈ may p && (t ≠ t!"a" || t!"a" ∉ p :: ps) && Obeys may (t :: p :: ps) r
  | _ :: ps, .closing _ :: r => Obeys may ps r
  | p :: ps, .single t :: r => t ∈ may p && Obeys may (p :: ps) r
  | p :: ps, .text t :: r => (nothing t || pcdata ∈ may p) && Obeys may (p :: ps) r
  | [], _ :: _ => false

/-- What is on the page is where it may be. -/
def RightPage (b : List Tok) : Bool := Obeys inside [t!"body"] b

/-- What the formatter puts where it may not be. -/
def strays (tag : Text) : List Text :=
  if tag ∈ [t!"table", t!"blockquote"] then pcdata :: inline.filter (· ≠ t!"img")
  else if tag = t!"dl" then pcdata :: inline.filter (· ≠ t!"img") ++ [t!"ul", t!"ol"]
  else if tag = t!"ul" then [t!"ul", t!"ol"]
  else if tag = t!"p" then [t!"blockquote"]
  else if tag = t!"li" then [t!"tr"]
  else if tag = t!"div" then [t!"dd"]
  else []

/-- What is in which element on a page: pairs of the outer and the inner one. -/
def places : List Text → List Tok → List (Text × Text)
  | _, [] => []
  | p :: ps, .opening t :: r => (p, t) :: places (t :: p :: ps) r
  | _ :: ps, .closing _ :: r => places ps r
  | p :: ps, .single t :: r => (p, t) :: places (p :: ps) r
  | p :: ps, .text t :: r => if nothing t then places (p :: ps) r else (p, pcdata) :: places (p :: ps) r
  | [], _ :: _ => []

end Bglib.Spec.Nesting
