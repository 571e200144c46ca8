import Verif.Model.WikiFormatter
/-
Model of the script `bglib/doc/format_script`, which writes a page for a document.

Bytes are characters below 256.  What is printed is kept as characters: `encode('utf-8')` of `unicode` objects is left
out.  The codec of the input is a parameter.
-/
namespace Bglib.Script
open Bglib Doc

/-- What has been printed: text, or the HTML of a document. -/
inductive Piece where
  | text (t : Text)
  | html (b : List Tok)
  deriving DecidableEq, Repr

/-- What the script has printed in the end, and the exception that has ended it. -/
structure Ran where
  printed : List Piece
  failed : Option PyErr
  deriving DecidableEq, Repr

/-- `fmt % args` for a tuple of texts; of the conversions only `%s` and `%%` are modelled. -/
def percent : Text → List Text → Py Text
  | [], [] => .ok []
  | [], _ :: _ => .error .typeError
  | '%' :: 's' :: _, [] => .error .typeError
  | '%' :: 's' :: r, a :: as => do return a ++ (← percent r as)
  | '%' :: '%' :: r, as => do return '%' :: (← percent r as)
  | '%' :: _, _ => .error .valueError
  | c :: r, as => do return c :: (← percent r as)

/-- format_script:16-23 -/
def headerTemplate : Text :=
  t!"<html>\n" ++
  t!"<head>\n" ++
  t!"<title>%s</title>" ++
  t!"</head>" ++
  t!"<body>" ++
  t!"<link rel=\"stylesheet\" type=\"text/css\" href=\"backgammonbase.css\">"

/-- `header`, format_script:15-24 -/
def header (title : Text) : Py Text := percent headerTemplate [title]

/-- `footer`, format_script:26-31 -/
def footer : Text := t!"</body>" ++ t!"</html>"

/-- `encode('utf-8')` of a byte string: it is decoded with the codec `ascii` first, which raises `UnicodeDecodeError`, a
`ValueError`. -/
def encodeBytes (t : Text) : Py Text := if t.all fun c => decide (c.toNat < 128) then .ok t else .error .valueError

/-- The title, format_script:33-36; `args` is `sys.argv[1:]`. -/
def titleOf : List Text → Text
  | [] => t!"Backgammon Document"
  | t :: _ => t

/-- What is outside for the script: wiki pages are at the default place, and `bglib.doc.macro.setup` is not called. -/
def outside (now : Text) (rst : Text → List Tok) : Env := { now := now, rst := rst }

/-- `print` -/
def lineOf (t : Text) : Piece := .text (t ++ ['\n'])

/-- format_script:1-39.  `Formatter(db)` keeps `_db` in an attribute that nothing reads, bgwiki.py:513. -/
def script (decode : Text → Py Text) (now : Text) (rst : Text → List Tok) (_db : Text → Text → Analysis)
    (args : List Text) (stdin : Text) : Ran :=
  match (do Formatter.new.parse (outside now rst) (← decode stdin)) with
  | .error e => ⟨[], some e⟩
  | .ok f =>
    match (do encodeBytes (← header (titleOf args))) with
    | .error e => ⟨[], some e⟩
    | .ok h =>
      match f.makeHtml (outside now rst) with
      | .error e => ⟨[lineOf h], some e⟩
      | .ok (b, _) =>
        match encodeBytes footer with
        | .error e => ⟨[lineOf h, .html b, .text ['\n']], some e⟩
        | .ok t => ⟨[lineOf h, .html b, .text ['\n'], lineOf t], none⟩

end Bglib.Script
