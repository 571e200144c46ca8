import Verif.Model.Text
import Verif.Model.Regex
/-
Model of `bglib/doc/doctree.py`: document trees, the editor that builds them, the writer of HTML; and of
`escape` in `bglib/doc/html.py`.

Nodes are numbered in the order of their creation; a document is a list of nodes with the numbers of
parents and children.  Attributes of elements are left out except those that decide about tags; what
`open` and `close` write is given as tags and text instead of as one string.
-/
namespace Bglib.Doc
open Bglib

/-- The designs of lists, doctree.py:243-254. -/
inductive Design where
  | star | sign | numeric | alpha | roman
  deriving DecidableEq, Repr

/-- The classes of nodes, doctree.py:51-308.  A list comes with its design, `none` if the attributes
asked for at doctree.py:261 are missing. -/
inductive Klass where
  | element | macro | root | line | span | br | bold | italic | underline | strike | sub | sup | monospace
  | tableCell | tableRow | tableHeader | itemize | definitionHeader | anchor | box | heading | h1 | h2 | h3
  | definitionBody | div | img | definitionList | table | blockQuote | citationContent | citation
  | list (d : Option Design) | text
  deriving DecidableEq, Repr

/-- The class without the design. -/
def Klass.base : Klass → Klass
  | .list _ => .list none
  | k => k

/-- The base class; `None` for `Node` and `object`, of which every node is one. -/
def Klass.super : Klass → Option Klass
  | .element => none
  | .macro | .root | .line | .box | .text => some .element
  | .span | .tableCell | .tableRow | .tableHeader | .itemize | .definitionHeader | .citationContent => some .line
  | .br | .bold | .italic | .underline | .strike | .sub | .sup | .monospace | .anchor | .img => some .span
  | .heading | .definitionBody | .div | .definitionList | .table | .blockQuote | .citation | .list _ => some .box
  | .h1 | .h2 | .h3 => some .heading

/-- `isinstance(k, c)`; no class is more than five levels deep. -/
def Klass.isA (k c : Klass) : Bool := go 5 k
where
  go : Nat → Klass → Bool
    | 0, _ => false
    | n + 1, k => k.base = c.base || match k.super with
      | some s => go n s
      | none => false

/-- `acceptables`, doctree.py:58-257 -/
def Klass.acceptables : Klass → List Klass
  | .macro => []
  | .div => [.span, .box]
  | .element | .text | .root => [.macro]
  | .tableRow => [.macro, .span, .tableCell, .tableHeader]
  | .itemize => [.macro, .span, .list none, .itemize, .table, .tableRow, .tableHeader, .tableCell]
  | .definitionBody => [.macro, .span, .list none]
  | .definitionList => [.macro, .span, .definitionHeader, .definitionBody, .list none]
  | .table => [.macro, .span, .tableRow, .tableHeader, .tableCell]
  | .citationContent | .citation => [.macro, .span, .citation, .citationContent]
  | .list _ => [.macro, .span, .list none, .itemize]
  | _ => [.macro, .span]

/-- `is_acceptable`, doctree.py:61-62, 99-100 -/
def Klass.accepts (k e : Klass) : Bool := k = .root || k.acceptables.any fun c => e.isA c

/-- `Node` with the text of `Text` nodes. -/
structure Node where
  klass : Klass
  parent : Option Nat
  children : List Nat
  text : Text
  deriving DecidableEq, Repr

/-- `Editor` with its document; the root is node 0. -/
structure Editor where
  nodes : List Node
  current : Option Nat
  deriving DecidableEq, Repr

/-- doctree.py:316-319 with a new `BgWikiElementRoot`. -/
def Editor.start : Editor := ⟨[⟨.root, none, [], []⟩], some 0⟩

/-- doctree.py:321-323 -/
def Editor.done (e : Editor) : Editor := { e with current := some 0 }

/-- The next node of a walk to the root: `node.parent`. -/
def Editor.parentOf (e : Editor) (i : Nat) : Option Nat := (e.nodes[i]?).bind (·.parent)

/-- Walking to the root until a node satisfies `f`; more steps than there are nodes mean a loop. -/
def Editor.climb (e : Editor) (f : Node → Bool) : Nat → Option Nat → Py (Option Nat)
  | _, none => .ok none
  | 0, some _ => .error .diverges
  | fuel + 1, some i =>
    match e.nodes[i]? with
    | none => .error .attributeError
    | some n => if f n then .ok (some i) else e.climb f fuel n.parent

/-- `append`, doctree.py:339-347: the new editor and the number of the new node.  Its parent is the
current node, although it becomes a child of the first one that accepts it.  The constructor of the root
class takes no parent. -/
def Editor.append (e : Editor) (k : Klass) : Py (Editor × Nat) :=
  if k = .root then .error .typeError
  else match e.climb (fun n => n.klass.accepts k) (e.nodes.length + 1) e.current with
  | .error x => .error x
  | .ok none => .error .attributeError
  | .ok (some c) =>
    .ok (⟨e.nodes.modify c (fun n => { n with children := n.children ++ [e.nodes.length] }) ++
      [⟨k, e.current, [], []⟩], some c⟩, e.nodes.length)

/-- `enter`, doctree.py:325-327 -/
def Editor.enter (e : Editor) (k : Klass) : Py Editor :=
  match e.append k with
  | .error x => .error x
  | .ok (e', i) => .ok { e' with current := some i }

/-- `leave`, doctree.py:329-337, for one class -/
def Editor.leave (e : Editor) (k : Klass) : Py Editor :=
  match e.climb (fun n => n.klass.isA k) (e.nodes.length + 1) e.current with
  | .error x => .error x
  | .ok none => .ok e
  | .ok (some i) => .ok { e with current := e.parentOf i }

/-- `remove`, doctree.py:349-350 with 25-28 -/
def Editor.remove (e : Editor) (i : Nat) : Py Editor :=
  match e.current.bind fun c => (e.nodes[c]?).map fun n => (c, n) with
  | none => .error .attributeError
  | some (c, n) =>
    if i ∈ n.children then
      .ok { e with nodes := e.nodes.modify c fun n => { n with children := n.children.erase i } }
    else .error .assertion

/-- `append_text`, doctree.py:352-358 -/
def Editor.appendText (e : Editor) (t : Text) : Py Editor :=
  match e.current.bind fun c => (e.nodes[c]?).map fun n => (c, n) with
  | none => .error .attributeError
  | some (c, n) =>
    match n.children.getLast?.bind fun i => (e.nodes[i]?).map fun m => (i, m) with
    | some (i, m) =>
      if m.klass = .text then
        .ok { e with nodes := e.nodes.modify i fun m => { m with text := m.text ++ t } }
      else
        .ok { e with nodes := e.nodes.modify c (fun n => { n with children := n.children ++ [e.nodes.length] }) ++
          [⟨.text, some c, [], t⟩] }
    | none =>
      .ok { e with nodes := e.nodes.modify c (fun n => { n with children := n.children ++ [e.nodes.length] }) ++
        [⟨.text, some c, [], t⟩] }

/-- The operations of the editor. -/
inductive Op where
  | enter (k : Klass)
  | leave (k : Klass)
  | append (k : Klass)
  | text (t : Text)
  | remove (i : Nat)
  | done
  deriving DecidableEq, Repr

def Editor.apply (e : Editor) : Op → Py Editor
  | .enter k => e.enter k
  | .leave k => e.leave k
  | .append k => match e.append k with
    | .ok (e', _) => .ok e'
    | .error x => .error x
  | .text t => e.appendText t
  | .remove i => e.remove i
  | .done => .ok e.done

def Editor.run (e : Editor) : List Op → Py Editor
  | [] => .ok e
  | o :: os => match e.apply o with
    | .ok e' => e'.run os
    | .error x => .error x

/-! ### HTML -/

/-- Pieces of HTML: tags with their names, and text. -/
inductive Tok where
  | opening (tag : Text)
  | closing (tag : Text)
  | single (tag : Text)
  | text (t : Text)
  deriving DecidableEq, Repr

/-- `html_element` -/
def Klass.tag : Klass → Option Text
  | .span | .underline | .monospace => some t!"span"
  | .br => some t!"br"
  | .bold => some t!"strong"
  | .italic => some t!"i"
  | .strike => some t!"del"
  | .sub => some t!"sub"
  | .sup => some t!"sup"
  | .tableCell => some t!"td"
  | .tableRow => some t!"tr"
  | .tableHeader => some t!"th"
  | .itemize => some t!"li"
  | .definitionHeader => some t!"dt"
  | .anchor => some t!"a"
  | .h1 => some t!"h1"
  | .h2 => some t!"h2"
  | .h3 => some t!"h3"
  | .definitionBody => some t!"dd"
  | .div => some t!"div"
  | .img => some t!"img"
  | .definitionList => some t!"dl"
  | .table => some t!"table"
  | .citationContent => some t!"p"
  | _ => none

/-- The first component of `_design`, doctree.py:243-254 -/
def Design.tag : Design → Text
  | .star | .sign => t!"ul"
  | _ => t!"ol"

/-- `open`, doctree.py:64-80 and the classes that define it -/
def Node.opens (n : Node) : Py (List Tok) :=
  match n.klass with
  | .text => .ok [.text n.text]
  | .blockQuote => .ok [.opening t!"blockquote", .opening t!"p"]
  | .citation => .ok [.opening t!"blockquote"]
  | .list none => .error .keyError
  | .list (some d) => .ok [.opening d.tag]
  | .br | .img => .ok [.single (n.klass.tag.getD [])]
  | k => match k.tag with
    | some t => .ok [.opening t]
    | none => .ok []

/-- `close`, doctree.py:82-88 and the classes that define it -/
def Node.closes (n : Node) : Py (List Tok) :=
  match n.klass with
  | .text => .ok [.text ['\n']]
  | .blockQuote => .ok [.closing t!"p", .closing t!"blockquote"]
  | .citation => .ok [.closing t!"blockquote"]
  | .list none => .error .keyError
  | .list (some d) => .ok [.closing d.tag]
  | .br | .img => .ok []
  | k => match k.tag with
    | some t => .ok [.closing t]
    | none => .ok []

/-- What visiting a list of nodes writes, given what visiting one writes. -/
def acceptAll (f : Nat → Py (List Tok)) : List Nat → Py (List Tok)
  | [] => .ok []
  | i :: is =>
    match f i with
    | .error x => .error x
    | .ok a =>
      match acceptAll f is with
      | .error x => .error x
      | .ok b => .ok (a ++ b)

/-- `accept` of a node with an `HtmlWriter`, doctree.py:30-35, 404-413; deeper than there are nodes means
without end. -/
def Editor.accept (e : Editor) : Nat → Nat → Py (List Tok)
  | 0, _ => .error .diverges
  | fuel + 1, i =>
    match e.nodes[i]? with
    | none => .error .attributeError
    | some n =>
      match n.opens with
      | .error x => .error x
      | .ok a =>
        match acceptAll (e.accept fuel) n.children with
        | .error x => .error x
        | .ok b =>
          match n.closes with
          | .error x => .error x
          | .ok c => .ok (a ++ b ++ c)

/-- The HTML of the whole document. -/
def Editor.html (e : Editor) : Py (List Tok) := e.accept (e.nodes.length + 1) 0

/-! ### Escaping -/

/-- The handler of html.py:15-25 for one character -/
def escapeChar (c : Char) : Text :=
  if c = '<' then t!"&lt;" else if c = '>' then t!"&gt;" else if c = '&' then t!"&amp;" else [c]

/-- `escape`, html.py:13-26 -/
def escape (s : Text) : Text := s.flatMap escapeChar

/-- `%s="%s"` for an attribute, doctree.py:69 -/
def attributeText (key value : Text) : Text := key ++ '=' :: '"' :: escape value ++ ['"']

end Bglib.Doc
