import Verif.Model.Doctree
/-
Documents, how they are written as wiki text, and what they should look like as HTML (C92).

A document is a list of blocks: paragraphs with headings, lists of items, quotations, citations, tables,
lists of terms, and blocks of program text.  The texts in them are made of plain characters and of
stretches in another type.
-/
namespace Bglib.Spec.Document
open Bglib Bglib.Doc

/-- A character that means nothing but itself: neither a capital letter, a digit, a line break nor one of
`! # & ' , / : < = > ? [ ^ _ { | } ~` and the backquote. -/
def plain (c : Char) : Bool :=
  CharSet.mem ⟨true, [('\n', '\n'), ('\r', '\r'), ('!', '!'), ('#', '#'), ('&', '\''), (',', ','), ('/', ':'), ('<', '?'),
    ('A', 'Z'), ('[', '['), ('^', '`'), ('{', '~')]⟩ c

/-! ### Stretches of text -/

inductive Style where
  | bold | italic | underline | strike | sub | sup | mono | code
  deriving DecidableEq, Repr

/-- What stands in front of a stretch. -/
def Style.before : Style → Text
  | .bold => t!"'''"
  | .italic => t!"''"
  | .underline => t!"__"
  | .strike => t!"~~"
  | .sub => t!",,"
  | .sup => t!"^"
  | .mono => t!"`"
  | .code => t!"{{{"

/-- What stands behind it. -/
def Style.after : Style → Text
  | .code => t!"}}}"
  | s => s.before

/-- The element that shows it. -/
def Style.tag : Style → Text
  | .bold => t!"strong"
  | .italic => t!"i"
  | .underline | .mono | .code => t!"span"
  | .strike => t!"del"
  | .sub => t!"sub"
  | .sup => t!"sup"

inductive Piece where
  | plain (t : Text)
  | styled (s : Style) (t : Text)
  deriving DecidableEq, Repr

abbrev Line := List Piece

def Piece.write : Piece → Text
  | .plain t => t
  | .styled s t => s.before ++ t ++ s.after

def write (l : Line) : Text := l.flatMap Piece.write

def Piece.text : Piece → Text
  | .plain t | .styled _ t => t

def Piece.isPlain : Piece → Bool
  | .plain _ => true
  | .styled _ _ => false

/-- Texts are of plain characters, and there is plain text between two stretches. -/
def Fit : Line → Prop
  | [] => True
  | [p] => p.text ≠ [] ∧ p.text.all plain = true
  | p :: q :: r => (p.text ≠ [] ∧ p.text.all plain = true) ∧ (p.isPlain = true ∨ q.isPlain = true) ∧ Fit (q :: r)

/-- Text between tags is followed by a line break. -/
def words (t : Text) : List Tok := if t = [] then [] else [.text t, .text ['\n']]

def element (tag : Text) (inside : List Tok) : List Tok := .opening tag :: inside ++ [.closing tag]

/-- Pieces one after the other, behind the plain text `t`. -/
def flow (t : Text) : Line → List Tok
  | [] => words t
  | .plain u :: l => flow (t ++ u) l
  | .styled s u :: l => words t ++ element s.tag (words u) ++ flow [] l

/-- The lines of a paragraph follow one another without anything in between. -/
def shown (ls : List Line) : List Tok := flow [] ls.flatten

/-- Begins like an ordinary line. -/
def Ordinary (l : Line) : Prop := Fit l ∧ l ≠ [] ∧ (write l).head? ≠ some ' '

/-! ### Blocks -/

/-- The marks of items. -/
inductive Mark where
  | star
  | sign (minus : Bool) (more : Fin 3)
  | numeric (n : Fin 8) (dot : Bool)
  | alpha (n : Fin 8) (dot : Bool)
  | roman (n : Fin 8) (dot : Bool)
  deriving DecidableEq, Repr

def dotted (t : Text) (dot : Bool) : Text := if dot then t ++ ['.'] else t

def Mark.write : Mark → Text
  | .star => t!"*"
  | .sign minus more => List.replicate (more + 1) (if minus then '-' else '+')
  | .numeric n dot => dotted [Char.ofNat ('1'.toNat + n)] dot
  | .alpha n dot => dotted [Char.ofNat ('a'.toNat + n)] dot
  | .roman n dot => dotted ([t!"i", t!"ii", t!"iii", t!"iv", t!"v", t!"vi", t!"vii", t!"viii"].getD n []) dot

/-- The list that begins with such an item. -/
def Mark.tag : Mark → Text
  | .star | .sign _ _ => t!"ul"
  | _ => t!"ol"

def Mark.isSign : Mark → Bool
  | .sign _ _ => true
  | _ => false

/-- Items with their text, which may go on in further lines, the items below, and the items after it. -/
inductive Items where
  | none
  | item (mark : Mark) (first : Line) (more : List Line) (below : Items) (next : Items)

/-- The lines of items at a depth. -/
def Items.write (depth : Nat) : Items → List Text
  | .none => []
  | .item m l ls below next =>
    (List.replicate depth ' ' ++ m.write ++ ' ' :: Document.write l) :: ls.map Document.write ++
      below.write (depth + 1) ++ next.write depth

/-- Whether the first item has a sign. -/
def Items.signed : Items → Bool
  | .none => false
  | .item m _ _ _ _ => m.isSign

/-- All items of a list whose first item has a sign have one; the lines are fit. -/
def Items.Fit (sign : Bool) : Items → Prop
  | .none => True
  | .item m l ls below next => (sign = true → m.isSign = true) ∧ Document.Fit l ∧ (∀ x ∈ ls, Ordinary x) ∧
      below.Fit below.signed ∧ next.Fit sign

/-- A list is of the kind its first item asks for. -/
def Items.list (items : Items) (inside : List Tok) : List Tok :=
  match items with
  | .none => []
  | .item m _ _ _ _ => element m.tag inside

def Items.html : Items → List Tok
  | .none => []
  | .item _ l ls below next => element t!"li" (shown (l :: ls) ++ below.list below.html) ++ next.html

/-- A line of a paragraph, or a heading. -/
inductive Part where
  | line (l : Line)
  | heading (level : Fin 3) (l : Line)

inductive Block where
  | text (parts : List Part)
  | items (l : Items)
  | quote (lines : List Line)
  | cited (depth : Nat) (lines : List Line)
  | table (rows : List (List Line))
  | terms (l : List (Text × List Line))
  | code (lines : List Text)

/-- The equals signs around a heading. -/
def rule (level : Fin 3) : Text := List.replicate (level + 1) '='

def Part.write : Part → Text
  | .line l => Document.write l
  | .heading n l => rule n ++ ' ' :: Document.write l ++ ' ' :: rule n

def Part.Fit : Part → Prop
  | .line l => Ordinary l
  | .heading _ l => Document.Fit l

/-- Plain text between headings belongs together. -/
def partsHtml (before : Line) : List Part → List Tok
  | [] => flow [] before
  | .line l :: ps => partsHtml (before ++ l) ps
  | .heading n l :: ps =>
    flow [] before ++ element (t!"h" ++ [Char.ofNat ('1'.toNat + n)]) (flow [] (.plain [' '] :: l ++ [.plain [' ']])) ++
      partsHtml [] ps

/-- A quoted line must not look like an item. -/
def Quoted (l : Line) : Prop :=
  Fit l ∧ l ≠ [] ∧ ∀ c, (write l).head? = some c →
    c ≠ ' ' ∧ c ≠ '*' ∧ c ≠ '+' ∧ c ≠ '-' ∧ ¬ ('a' ≤ c ∧ c ≤ 'i') ∧ c ≠ 'v'

/-- The lines of a block. -/
def Block.write : Block → List Text
  | .text parts => parts.map Part.write
  | .items l => l.write 1
  | .quote ls => ls.map fun l => t!"  " ++ Document.write l
  | .cited n ls => ls.map fun l => List.replicate (n + 1) '>' ++ ' ' :: Document.write l
  | .table rows => rows.map fun r => t!"||" ++ r.flatMap fun l => Document.write l ++ t!"||"
  | .terms l => l.flatMap fun x => (x.1 ++ t!"::") :: x.2.map fun b => t!"  " ++ Document.write b
  | .code ls => t!"{{{" :: ls ++ [t!"}}}"]

def Block.Fit : Block → Prop
  | .text parts => parts ≠ [] ∧ ∀ p ∈ parts, p.Fit
  | .items l => l ≠ .none ∧ l.Fit l.signed
  | .quote ls => ls ≠ [] ∧ ∀ l ∈ ls, Quoted l
  | .cited _ ls => ls ≠ [] ∧ ∀ l ∈ ls, Document.Fit l
  | .table rows => rows ≠ [] ∧ ∀ r ∈ rows, r ≠ [] ∧ ∀ l ∈ r, Document.Fit l
  | .terms l => l ≠ [] ∧ ∀ x ∈ l, Ordinary [.plain x.1] ∧ ∀ b ∈ x.2, Quoted b
  | .code ls => ∀ l ∈ ls, l ≠ t!"}}}" ∧ l.take 2 ≠ t!"#!" ∧ '\n' ∉ l ∧ '\r' ∉ l

/-- A block is shown in an element of its own; program text behind an empty one. -/
def Block.html : Block → List Tok
  | .text parts => element t!"div" (partsHtml [] parts)
  | .items l => element t!"div" (l.list l.html)
  | .quote ls => element t!"div" (element t!"blockquote" (element t!"p" (shown ls)))
  | .cited n ls => element t!"div" ((List.range (n + 1)).foldr (fun _ => element t!"blockquote") (element t!"p" (shown ls)))
  | .table rows => element t!"div" (element t!"table" (rows.flatMap fun r =>
      element t!"tr" (r.flatMap fun l => element t!"td" (flow [] l))))
  | .terms l => element t!"div" (element t!"dl" (l.flatMap fun x =>
      element t!"dt" (words x.1) ++ element t!"dd" (shown x.2)))
  | .code ls => element t!"div" [] ++ element t!"pre" [.text (escape (ls.flatMap (· ++ ['\n'])))]

/-- The text of a document: blocks are separated by empty lines. -/
def text (blocks : List Block) : Text := (blocks.flatMap fun b => b.write ++ [[]]).flatMap (· ++ ['\n'])

def html (blocks : List Block) : List Tok := blocks.flatMap Block.html

end Bglib.Spec.Document
