import Verif.Model.References
import Verif.Props.WikiFormatter
/-
C77: the references of a document.
-/
namespace Bglib
open Spec Doc

/-- The HTML of a text after its references were asked for. -/
def afterReferences (env : Env) (text : Text) : Py (List Tok) := do
  let f ← Formatter.new.parse env text
  let r ← f.extractReferences env
  let r' ← r.2.makeHtml env
  return r'.1

/-- Asking for the references of a text without blocks does not change its HTML, and fails only if that does.
Missing for the whole of C77: blocks, with which it fails, and the references. -/
theorem C77_same_partial (env : Env) (text : Text) (ht : ¬ Contains text t!"{{{") :
    afterReferences env text = format env text := by
  unfold afterReferences format Formatter.parse Formatter.new Formatter.extractReferences Formatter.makeHtml
  cases hp : Wiki.start.parse env text with
  | error e => simp only [bind, Except.bind]
  | ok w =>
    have hno := parse_noBlock env text ht w hp
    have hh : ∀ (d : Editor) (g : Nat → Text), d.nodes = w.doc.nodes →
        (Wiki.withTexts ⟨d, w.side⟩ g).html env = w.html env := by
      intro d g hd
      refine html_congr env hd fun i => ?_
      exact plain_extra ⟨d, w.side⟩ g (fun i b r => hno i b r) i
    simp only [bind, Except.bind, pure, Except.pure]
    rw [show (w.withTexts (Formatter.texts ⟨w, none, fun _ => []⟩)).html env = w.html env from hh w.doc _ rfl]
    cases hw : w.html env with
    | error e => rfl
    | ok b =>
      dsimp only
      rw [hh w.doc.done _ rfl, hw]

example : ¬ Contains t!"[wiki:blot]" t!"{{{" := by
  rintro ⟨a, b, h⟩
  have h1 : '{' ∈ t!"[wiki:blot]" := by rw [h]; simp
  exact absurd h1 (by decide)

/-- No document has references, whatever links it contains. -/
theorem C77_false (env : Env) (f f' : Formatter) (r : List (Text × List Text))
    (h : f.extractReferences env = .ok (r, f')) : r = [] := by
  unfold Formatter.extractReferences at h
  simp only [bind, Except.bind, pure, Except.pure] at h
  split at h
  · cases h
  · cases h; rfl

/-- The texts of the authors' tests do contain links. -/
example : linksOf {} t!"BackgammonBase, [wiki:blot]" =
    [[(t!"class", t!"wiki-link"), (t!"title", t!"blot"), (t!"href", t!"/blot")],
     [(t!"class", t!"wiki-link"), (t!"title", t!"BackgammonBase"), (t!"href", t!"/BackgammonBase")]] ∧
    (∃ f f', Formatter.new.parse {} t!"BackgammonBase, [wiki:blot]" = .ok f ∧ f.extractReferences {} = .ok ([], f')) :=
  ⟨by decide, _, _, rfl, rfl⟩

/-- Asking for references writes the blocks of the document once more. -/
theorem C77_false_changes :
    (format {} t!"{{{\na\n}}}").toOption.map htmlText = some t!"<div></div><pre>a\n</pre>" ∧
    (afterReferences {} t!"{{{\na\n}}}").toOption.map htmlText = some t!"<div></div><pre>a\na\n</pre>" := by decide

end Bglib
