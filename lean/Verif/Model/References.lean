import Verif.Model.WikiFormatter
/-
Model of `extract_references` of `bglib/doc/bgwiki.py`.
-/
namespace Bglib.Doc
open Bglib

/-- `extract_references`, bgwiki.py:533-538: kinds with the things referred to.  The document is written as HTML, so
that the texts of blocks are collected once more; what is written is thrown away. -/
def Formatter.extractReferences (f : Formatter) (env : Env) : Py (List (Text × List Text) × Formatter) := do
  let _ ← (f.own.withTexts f.texts).html env
  return ([], ⟨f.own, f.lines, f.texts⟩)

end Bglib.Doc
