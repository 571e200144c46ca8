import Verif.Model.Pattern
import Verif.Model.Wiki
import Verif.Model.Css
/-
Model of the comparison of HTML in `bglib/doc/html.py`, which the tests of the wiki use.
-/
namespace Bglib.Doc
open Bglib

/-- `nomalize`, html.py:28-32: newlines are left out, one is put behind every `>` -/
def nomalize (html : Text) : Text :=
  (html.filter (· ≠ '\n')).flatMap fun c => if c = '>' then ['>', '\n'] else [c]

def elementChars : List (Char × Char) := [('/', '/'), ('a', 'z'), ('A', 'Z'), ('0', '9')]
def attrNameChars : List (Char × Char) := [('a', 'z'), ('A', 'Z')]
def attrValueChars : List (Char × Char) := [('a', 'z'), ('A', 'Z'), ('0', '9'), (':', ':'), (';', ';'), ('.', '.'), ('/', '/'), ('-', '-')]

/-- `ATTRIBUTE`, html.py:36-38 -/
def htmlAttrRe : Re := .group t!"attribute" (.all' [.group t!"attrname" (.plus (.any attrNameChars)), .ch '=', .ch '"',
  .group t!"attrvalue" (.plus (.any attrValueChars)), .ch '"'])

/-- `ATTRIBUTE_LIST`, html.py:39 -/
def attrListRe : Re := .group t!"attribute_list" (.star (.seq htmlAttrRe (.star (.ch ' '))))

/-- `TAG`, html.py:35, 40 -/
def tagRe : Re := .group t!"tag" (.all' [.ch '<', .group t!"element" (.plus (.any elementChars)),
  .opt (.seq (.ch ' ') attrListRe), .ch '>'])

/-- The letters between tags, html.py:41: all but `<`, `>` and `&` -/
def textSet : CharSet := ⟨true, [('<', '<'), ('>', '>'), ('&', '&')]⟩

/-- `TEXT`, html.py:41 -/
def textRe : Re := .group t!"text" (.star (.set textSet))

/-- `TAG_OR_TEXT`, html.py:42 -/
def tagOrTextRe : Re := .alt tagRe textRe

/-- What the comparison sees: a tag with its attributes in the order of the text (the items of a
dictionary made of them are compared, see `Token.seen`), or text without blanks around it. -/
inductive Token where
  | tag (element : Text) (attrs : List (Text × Text))
  | text (t : Text)
  deriving DecidableEq, Repr

/-- `str.strip()` -/
def strip (t : Text) : Text := ((t.dropWhile isSpace).reverse.dropWhile isSpace).reverse

/-- The pairs found by `dictify_attr`, html.py:55-60 -/
def attrPairs (attr : Text) : List (Text × Text) :=
  (finditer [((), htmlAttrRe)] attr).map fun x => ((groupOf x.2.2 t!"attrname").getD [], (groupOf x.2.2 t!"attrvalue").getD [])

/-- What is appended for one match, html.py:76-79 -/
def tokenOf (g : List (Text × Text)) : Option Token :=
  let element := (groupOf g t!"element").getD []
  let text := (groupOf g t!"text").getD []
  if element ≠ [] then some (.tag element (attrPairs ((groupOf g t!"attribute_list").getD [])))
  else if text ≠ [] then some (.text (strip text))
  else none

/-- `tupdict`, html.py:72-80, with the attributes in the order of the text -/
def tupdict (normalized : Text) : List Token :=
  (finditer [((), tagOrTextRe)] normalized).filterMap fun x => tokenOf x.2.2

/-- The dictionary of attributes: the last value of each name. -/
def attrDict (l : List (Text × Text)) : List (Text × Text) :=
  l.foldl (fun d x => Bglib.Img.putText x.1 x.2 d) []

/-- A tuple as it is compared: `items` gives the items of the dictionary in an order that depends on how
it was filled (any function, see `Spec.ItemsOf`). -/
def Token.seen (items : List (Text × Text) → List (Text × Text)) : Token → Token
  | .tag e l => .tag e (items l)
  | .text t => .text t

/-- Whether `cmp_tuple`, html.py:82-95, gives the empty list, so that `assertHtmlEqual` passes.  Assumed of
`difflib`: all opcodes are `equal` exactly if the sequences are equal. -/
def htmlSame (items : List (Text × Text) → List (Text × Text)) (a b : Text) : Bool :=
  a = b || (tupdict (nomalize a)).map (Token.seen items) = (tupdict (nomalize b)).map (Token.seen items)

end Bglib.Doc
