import Verif.Model.Markup
/-
Specification for C119: what converters of markup are given, and what a formatter is.
-/
namespace Bglib.Spec
open Bglib Markup

/-- What a user of a formatter does with it. -/
inductive Use where
  | parse (t : Text)
  | html
  | pdf

/-- The texts that have to be converted, one for each HTML asked for: all that was given until then.  `t` is what was
given before. -/
def toConvert (t : Text) : List Use → List Text
  | [] => []
  | .parse u :: us => toConvert (t ++ u) us
  | .html :: us => t :: toConvert t us
  | .pdf :: us => toConvert t us

/-- The answers of a converter to texts, one after the other. -/
def conversions {σ : Type} (convert : σ → Text → Py Text × σ) : σ → List Text → List (Py Text)
  | _, [] => []
  | s, t :: ts => (convert s t).1 :: conversions convert (convert s t).2 ts

/-- The HTML texts that a `mkdn.Formatter` gives, used so. -/
def mkdnHtml {σ : Type} (convert : σ → Text → Py Text × σ) : Mkdn σ → List Use → List (Py Text)
  | _, [] => []
  | f, .parse t :: us => mkdnHtml convert (f.parse t) us
  | f, .html :: us => (f.makeHtml convert).1 :: mkdnHtml convert (f.makeHtml convert).2 us
  | f, .pdf :: us => mkdnHtml convert f us

/-- The HTML texts that a `rst.Formatter` gives, used so. -/
def rstHtml (publish : Publish) : Rst → List Use → List (Py Text)
  | _, [] => []
  | f, .parse t :: us => rstHtml publish (f.parse t) us
  | f, .html :: us => f.makeHtml publish :: rstHtml publish f us
  | f, .pdf :: us => rstHtml publish f us

/-- The body of the HTML page docutils makes of an ASCII text, with a lone heading as title and headings from the
first level on; a `KeyError` if its answer has no body. -/
def bodyOf (publish : Publish) (t : Text) : Py Text :=
  match publish ⟨t!"html", t!"us-ascii", 1, 1⟩ t with
  | .error e => .error e
  | .ok parts => match parts.lookup t!"html_body" with
    | some b => .ok b
    | none => .error .keyError

/-- The object has something of that name that can be called. -/
def CanCall (o : Obj) (name : Text) : Prop := ∃ a, o.get name = some (.method a)

/-- What is meant by a formatter: it descends from the class `Formatter`, has the three methods, and gives texts for
HTML and PDF. -/
def IsFormatter (o : Obj) : Prop :=
  formatter ∈ o.klass.line ∧ CanCall o t!"parse" ∧
    o.get t!"make_html" = some (.method .text) ∧ o.get t!"make_pdf" = some (.method .text)

end Bglib.Spec
