import Verif.Model.Wiki
/-
Model of the object `Formatter` of `bglib/doc/bgwiki.py`: parsing several texts, making HTML several
times, `reset`.

An exception ends the story: what is left of the object after one is not modelled.
-/
namespace Bglib.Doc
open Bglib

/-- `Formatter`, bgwiki.py:512-540.  `own` is the editor with its document; `lines` the editor of the line
formatter if that is another one; `collected` the text a wrapped formatter has, by the number of the block,
bgwiki.py:136-143, rst.py:78-79. -/
structure Formatter where
  own : Wiki
  lines : Option Wiki
  collected : Nat → Text

/-- bgwiki.py:513-520 -/
def Formatter.new : Formatter := ⟨Wiki.start, none, fun _ => []⟩

/-- `reset`, bgwiki.py:22-25: a new document and a new editor; the line formatter keeps its editor. -/
def Formatter.reset (f : Formatter) : Formatter := ⟨Wiki.start, some (f.lines.getD f.own), fun _ => []⟩

/-- The line formatter only, one line after the other. -/
def Wiki.parseLines (w : Wiki) (env : Env) : List Text → Py Wiki
  | [] => .ok w
  | l :: ls => do (← w.parseLine env l).parseLines env ls

/-- `parse`, bgwiki.py:522-531.  With a line formatter that writes elsewhere the current node stays the
root, which is no block. -/
def Formatter.parse (f : Formatter) (env : Env) (text : Text) : Py Formatter :=
  match f.lines with
  | none => do
    let w ← f.own.parse env text
    return { f with own := w }
  | some l => do
    let w ← l.parseLines env (splitLines [] text)
    return { f with lines := some w }

/-- The text of the wrapped formatter of node `i` after one more `parse(self.buf)`, bgwiki.py:96-100 -/
def Formatter.texts (f : Formatter) (i : Nat) : Text :=
  match f.own.extra i with
  | some (.block buf _) => f.collected i ++ buf
  | _ => f.collected i

/-- Other texts in the blocks. -/
def Extra.withText (t : Text) : Extra → Extra
  | .block _ r => .block t r
  | x => x

def Wiki.withTexts (w : Wiki) (g : Nat → Text) : Wiki :=
  { w with side := w.side.map fun x => (x.1, x.2.withText (g x.1)) }

/-- `make_html`, bgwiki.py:31-36 -/
def Formatter.makeHtml (f : Formatter) (env : Env) : Py (List Tok × Formatter) := do
  let w : Wiki := { f.own with doc := f.own.doc.done }
  let b ← (w.withTexts f.texts).html env
  return (b, ⟨w, f.lines, f.texts⟩)

end Bglib.Doc
