import Verif.Model.Wiki
/-
Model of the tests by chance, `bglib/doc/fuzzing.py`.
-/
namespace Bglib.Doc
open Bglib

/-- The letters of `Gene`, fuzzing.py:33-34 -/
def geneLetters : List Text := [t!"g", t!"t", t!"a", t!"c"]

/-- The letters of `wGene`, bgwiki.py:542-553 -/
def wGeneLetters : List Text :=
  (t!"\n " ++ t!"[]'\"_~^`{}.:*=-+#|!<>/&Xx" ++ t!"1234567890" ++ t!"abcdefgh" ++ t!"iv").map (fun c => [c]) ++
  [t!"http:", t!"https:", t!"query:", t!"entry:", t!"match:", t!"wiki:", t!"||", t!"CamelWord"]

/-- `num_to_text`, fuzzing.py:38-40; the numbers are not negative -/
def numToText (letters : List Text) (n : Nat) : Py Text :=
  match letters[n]? with
  | some t => .ok t
  | none => .error .indexError

/-- `Gene(length)`, fuzzing.py:42-44: `draws` are the answers of `random`, each reduced to the range asked for.  Without
letters `randint(0, -1)` is a `ValueError`. -/
def newGene (letters : List Text) (draws : List Nat) : Py (List Nat) :=
  if letters = [] ∧ draws ≠ [] then .error .valueError else .ok (draws.map (· % letters.length))

/-- `get_text`, fuzzing.py:53-54 -/
def geneText (letters : List Text) : List Nat → Py Text
  | [] => .ok []
  | c :: cs => do
    let t ← numToText letters c
    let r ← geneText letters cs
    return t ++ r

/-- `list(g.iter_subset())`, fuzzing.py:76-78: `Gene` is given a code for its length, so that `range` of a tuple is a
`TypeError`. -/
def iterSubset (code : List Nat) : Py (List (List Nat)) :=
  if code = [] then .ok [] else .error .typeError

/-- `list(g.shorter_fails())`, fuzzing.py:80-83: `iter_subset` is no global name. -/
def shorterFails (_code : List Nat) : Py (List (List Nat)) := .error .nameError

/-- What formatting a text does: it does not end within three seconds, it raises, or it gives HTML.  (`none` is the
HTML of `bglib.doc.Formatter`, which is empty, too.) -/
inductive Run where
  | hangs
  | raises
  | html (t : Option Text)
deriving DecidableEq, Repr

/-- What is printed for a text: the exception and where it was raised, `timed out`, or the traceback of an exception
that nothing catches. -/
inductive Report where
  | reason
  | timedOut
  | traceback
deriving DecidableEq, Repr

/-- What the child does, fuzzing.py:114-129: prints reports, and writes to the pipe or not.  `terminal`: whether the
output is a terminal; if it is not, what is printed stays in a buffer, which `os._exit` throws away.  `validate` is
`bglib.doc.html.validate`, true if it does not raise.  Simplification: a child that does not hang ends in time. -/
def child (terminal : Bool) (validate : Text → Bool) : Run → List Report × Bool
  | .hangs => ([], false)
  | .raises => (if terminal then [.reason] else [], false)
  | .html none => ([.traceback], false)
  | .html (some []) => ([.traceback], false)
  | .html (some t) => if validate t then ([], true) else (if terminal then [.reason] else [], false)

/-- One round of `fuzz_it`, fuzzing.py:93-132: the parent waits until something can be read, at most three seconds; it
has the writing end open itself, so that the end of the child alone is not seen.  Simplification: `fork` succeeds. -/
def fuzzOne (terminal : Bool) (validate : Text → Bool) (r : Run) : List Report :=
  let c := child terminal validate r
  c.1 ++ if c.2 then [] else [.timedOut]

end Bglib.Doc
