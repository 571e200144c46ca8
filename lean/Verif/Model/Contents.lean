import Verif.Model.Wiki
/-
The links of tables of contents, `bglib/doc/macro.py`, and the ids of headings they set.

`TableOfContentNode.open` goes through the whole document when the writer comes to it; it numbers the headings and sets the
attribute `id` of each, which `open` of the heading writes if the writer comes to the heading later.  Attributes stay
when the document is written again.
-/
namespace Bglib.Doc
open Bglib

/-- What matters here of a page. -/
inductive PageMark where
  /-- a table of contents with links to `#fragment%i` for these numbers -/
  | contents (links : List Nat)
  /-- a heading with the attribute `id="fragment%i"`, if it has one -/
  | heading (id : Option Nat)
  deriving DecidableEq, Repr

/-- Whether a node is a heading. -/
def Wiki.isHeading (w : Wiki) (i : Nat) : Bool := ((w.doc.nodes[i]?).bind fun n => n.klass.level).isSome

/-- macro.py:138-151, 153-174 and doctree.py:64-80 for the nodes visited, in their order: `total` headings in all, whether a
table of contents has set the ids (`marked`), and the headings before (`count`). -/
def Wiki.marks (w : Wiki) (total : Nat) : Bool → Nat → List Nat → List PageMark
  | _, _, [] => []
  | marked, count, i :: is =>
    if w.extra i = some .toc then .contents (List.range total) :: w.marks total true count is
    else if w.isHeading i then .heading (if marked then some count else none) :: w.marks total marked (count + 1) is
    else w.marks total marked count is

/-- The nodes in the order of writing. -/
def Wiki.order (w : Wiki) : List Nat := w.doc.visited (w.doc.nodes.length + 1) 0

/-- The links and ids of the page; `marked`: it was written before, with a table of contents. -/
def Wiki.page (w : Wiki) (marked : Bool) : List PageMark := w.marks w.doc.headings.length marked 0 w.order

/-- Whether the document has a table of contents. -/
def Wiki.hasContents (w : Wiki) : Bool := w.order.any fun i => w.extra i = some .toc

end Bglib.Doc
