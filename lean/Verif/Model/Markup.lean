import Verif.Model.Fuzzing
/-
Model of the formatters of Markdown and reStructuredText, `bglib/doc/mkdn.py` and `bglib/doc/rst.py`, and of the tests
that every formatter has to pass, `bglib/doc/viewer_type.py`.

The libraries `markdown` and `docutils` are parameters.
-/
namespace Bglib.Markup
open Bglib

/-- `mkdn.Formatter`, mkdn.py:17-23: `md` is the state of the converter, which is made once. -/
structure Mkdn (σ : Type) where
  md : σ
  text : Text

/-- mkdn.py:17-23 -/
def Mkdn.new {σ : Type} (md : σ) : Mkdn σ := ⟨md, []⟩

/-- mkdn.py:25-26.  Simplification: texts are all of one type (`str` or `unicode`). -/
def Mkdn.parse {σ : Type} (f : Mkdn σ) (t : Text) : Mkdn σ := { f with text := f.text ++ t }

/-- mkdn.py:27-28; `convert` may change the converter and may raise. -/
def Mkdn.makeHtml {σ : Type} (convert : σ → Text → Py Text × σ) (f : Mkdn σ) : Py Text × Mkdn σ :=
  let a := convert f.md f.text
  (a.1, { f with md := a.2 })

/-- mkdn.py:29-30 -/
def Mkdn.makePdf {σ : Type} (_ : Mkdn σ) : Text := []

/-- What `publish_parts` is asked besides the text, rst.py:41-48; paths are always `None`. -/
structure Settings where
  writer : Text
  inputEncoding : Text
  doctitle : Nat
  headerLevel : Nat
deriving DecidableEq

/-- What `docutils.core.publish_parts` answers: a dictionary. -/
abbrev Publish := Settings → Text → Py (List (Text × Text))

/-- `html_parts`, rst.py:18-48 -/
def htmlParts (publish : Publish) (t inputEncoding : Text) (doctitle headerLevel : Nat) : Py (List (Text × Text)) :=
  publish ⟨t!"html", inputEncoding, doctitle, headerLevel⟩ t

/-- `html_body`, rst.py:50-72, with the default for `output_encoding`, which alone is used: nothing is encoded. -/
def htmlBody (publish : Publish) (t inputEncoding : Text) (doctitle headerLevel : Nat) : Py Text := do
  let parts ← htmlParts publish t inputEncoding doctitle headerLevel
  match parts.lookup t!"html_body" with
  | some b => .ok b
  | none => .error .keyError

/-- `rst.Formatter`, rst.py:74-75 -/
structure Rst where
  text : Text
deriving DecidableEq

/-- rst.py:74-75 -/
def Rst.new : Rst := ⟨[]⟩

/-- rst.py:77-78 -/
def Rst.parse (f : Rst) (t : Text) : Rst := ⟨f.text ++ t⟩

/-- rst.py:80-81 -/
def Rst.makeHtml (publish : Publish) (f : Rst) : Py Text := htmlBody publish f.text t!"us-ascii" 1 1

/-- rst.py:83-84 -/
def Rst.makePdf (_ : Rst) : Text := []

/-- The letters of `mkdnGene`, mkdn.py:33-44 -/
def mkdnGeneLetters : List Text :=
  (t!"\n " ++ t!"[]'\"_~^`{}.:*=-+#|!<>/&Xx" ++ t!"1234567890" ++ t!"abcdefgh" ++ t!"iv").map (fun c => [c]) ++
  [t!"##", t!"###", t!"======", t!"------", t!"**", t!"![hoge](Image"]

/-- What a call of a method without arguments does. -/
inductive Answer where
  | text
  | none
  | other
  | raises
deriving DecidableEq

/-- An attribute: something that can be called, or another value. -/
inductive Attr where
  | method (a : Answer)
  | value
deriving DecidableEq

/-- Classes with one base; two classes are the same if they have the same name, attributes and base. -/
inductive Klass where
  | object
  | sub (name : Text) (attrs : List (Text × Attr)) (base : Klass)
deriving DecidableEq

/-- An object: its class and its own attributes. -/
structure Obj where
  klass : Klass
  own : List (Text × Attr)

/-- Attributes of classes are found in the class itself or else in its base. -/
def Klass.get (name : Text) : Klass → Option Attr
  | .object => .none
  | .sub _ as b => match as.lookup name with
    | some a => some a
    | .none => b.get name

/-- Attributes of objects: the own ones before those of the class.  Simplification: no properties, no `__getattr__`. -/
def Obj.get (o : Obj) (name : Text) : Option Attr :=
  match o.own.lookup name with
  | some a => some a
  | .none => o.klass.get name

/-- A class and what it descends from. -/
def Klass.line : Klass → List Klass
  | .object => [.object]
  | .sub n as b => .sub n as b :: b.line

/-- `isinstance` -/
def Obj.isA (o : Obj) (k : Klass) : Bool := decide (k ∈ o.klass.line)

/-- `bglib.doc.Viewer`, doc/__init__.py:7-13; with arguments `parse` answers `None`, too. -/
def viewer : Klass :=
  .sub t!"Viewer" [(t!"parse", .method .none), (t!"make_html", .method .none), (t!"make_pdf", .method .none)] .object

/-- `bglib.doc.Formatter`, doc/__init__.py:15-21.  Called without a text `parse` raises. -/
def formatter : Klass :=
  .sub t!"Formatter" [(t!"parse", .method .raises), (t!"make_html", .method .none), (t!"make_pdf", .method .none)] viewer

/-- What one assertion of a test asks of `self.target`. -/
inductive Ask where
  /-- `isinstance(self.target, …)` -/
  | isA (k : Klass)
  /-- `hasattr(self.target, …)` -/
  | has (name : Text)
  /-- `callable(getattr(self.target, …))` -/
  | callable (name : Text)
  /-- `isinstance(f(), (str, unicode))` for `f = getattr(self.target, …)` -/
  | text (name : Text)

/-- Whether an assertion holds; an exception is taken for a failure. -/
def Ask.holds (o : Obj) : Ask → Bool
  | .isA k => o.isA k
  | .has n => (o.get n).isSome
  | .callable n => match o.get n with
    | some (.method _) => true
    | _ => false
  | .text n => match o.get n with
    | some (.method .text) => true
    | _ => false

/-- The body of a class of tests: methods in the order in which they are written. -/
abbrev Body := List (Text × List Ask)

/-- Assigning in a class body: a later method with the same name takes the place of an earlier one. -/
def Body.set (name : Text) (m : List Ask) : Body → Body
  | [] => [(name, m)]
  | (n, x) :: b => if n = name then (n, m) :: b else (n, x) :: Body.set name m b

/-- The methods of a class: those of its base, and then its body. -/
def Body.over (base : Body) (body : Body) : Body := body.foldl (fun b x => b.set x.1 x.2) base

/-- `ViewerDuckTypeTest` as written, viewer_type.py:11-25 -/
def viewerBody : Body := [
  (t!"instance_viewer_test", [.isA viewer]),
  (t!"has_make_html_test", [.has t!"parse", .callable t!"parse"]),
  (t!"has_make_html_test", [.has t!"make_html", .callable t!"make_html"]),
  (t!"has_make_pdf_test", [.has t!"make_pdf", .callable t!"make_pdf"])]

/-- `FormatterDuckTypeTest` as written, viewer_type.py:28-38 -/
def formatterBody : Body := [
  (t!"instance_formatter_test", [.isA formatter]),
  (t!"call_make_html_test", [.text t!"make_html"]),
  (t!"call_make_pdf_test", [.text t!"make_pdf"])]

/-- The tests that are run for viewers -/
def viewerTests : Body := Body.over [] viewerBody

/-- The tests that are run for formatters -/
def formatterTests : Body := viewerTests.over formatterBody

/-- Every test passes. -/
def Body.passes (tests : Body) (o : Obj) : Bool := tests.all fun t => t.2.all (Ask.holds o)

/-- `bgwiki.BaseFormatter`, bgwiki.py:17-36; the attributes asked for -/
def wikiBase : Klass := .sub t!"BaseFormatter" [(t!"make_pdf", .method .text), (t!"make_html", .method .text)] formatter

/-- A new `bgwiki.Formatter`, bgwiki.py:512-540, as far as asked for; `make_html` of a new one gives a text. -/
def wikiObj : Obj := ⟨.sub t!"bgwiki.Formatter" [(t!"parse", .method .raises)] wikiBase, [(t!"db", .value)]⟩

/-- The answer of a call as far as tests ask for it. -/
def answerOf : Py Text → Answer
  | .ok _ => .text
  | .error _ => .raises

/-- A new `mkdn.Formatter`, mkdn.py:11-30, where `a` is what conversion of the empty text gives. -/
def mkdnObj (a : Py Text) : Obj :=
  ⟨.sub t!"mkdn.Formatter" [(t!"parse", .method .raises), (t!"make_html", .method (answerOf a)),
    (t!"make_pdf", .method .text)] formatter, [(t!"md", .value), (t!"text", .value)]⟩

/-- A new `rst.Formatter`, rst.py:12-84, likewise -/
def rstObj (a : Py Text) : Obj :=
  ⟨.sub t!"rst.Formatter" [(t!"parse", .method .raises), (t!"make_html", .method (answerOf a)),
    (t!"make_pdf", .method .text)] formatter, [(t!"text", .value)]⟩

end Bglib.Markup
