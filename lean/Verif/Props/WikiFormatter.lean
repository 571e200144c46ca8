import Verif.Props.Wiki
import Verif.Lemmas.WikiFormatter
/-
The formatter as an object used more than once: C63.
-/
namespace Bglib
open Spec Doc

/-! ### C63: a formatter can be used more than once -/

/-- The first HTML a new formatter makes of a text is `format`. -/
theorem C63_first (env : Env) (text : Text) :
    (do let f ← Formatter.new.parse env text
        let r ← f.makeHtml env
        return r.1) = format env text := by
  unfold format Formatter.parse Formatter.new Formatter.makeHtml
  cases h : Wiki.start.parse env text with
  | error e => simp only [bind, Except.bind]
  | ok w =>
    have : (Wiki.withTexts { w with doc := w.doc.done } (Formatter.texts ⟨w, none, fun _ => []⟩)).html env = w.html env := by
      refine html_congr env rfl fun i => ?_
      exact first_extra w none i
    simp only [bind, Except.bind, pure, Except.pure, this]
    cases w.html env <;> rfl

/-- Texts can be given in pieces that end with line ends. -/
theorem C63_pieces (env : Env) (w : Wiki) (a b : Text) :
    w.parse env (a ++ '\n' :: b) = (do (← w.parse env (a ++ ['\n'])).parse env b) := by
  unfold Wiki.parse
  rw [splitLines_append a.length [] a b (Nat.le_refl _), lines_append]

/-- Without blocks the HTML made again is the same. -/
theorem C63_again_partial (env : Env) (text : Text) (ht : ¬ Contains text t!"{{{") (f f' : Formatter) (b : List Tok)
    (h : Formatter.new.parse env text = .ok f) (h' : f.makeHtml env = .ok (b, f')) :
    ∃ f'', f'.makeHtml env = .ok (b, f'') := by
  unfold Formatter.parse Formatter.new at h
  cases hp : Wiki.start.parse env text with
  | error e => simp only [bind, Except.bind, hp] at h; cases h
  | ok w =>
    have hno := parse_noBlock env text ht w hp
    simp only [bind, Except.bind, pure, Except.pure, hp] at h
    cases h
    have hh : ∀ (d : Editor) (g : Nat → Text), d.nodes = w.doc.nodes →
        (Wiki.withTexts ⟨d, w.side⟩ g).html env = w.html env := by
      intro d g hd
      refine html_congr env hd fun i => ?_
      exact plain_extra ⟨d, w.side⟩ g (fun i b r => hno i b r) i
    unfold Formatter.makeHtml at h' ⊢
    simp only [bind, Except.bind, pure, Except.pure] at h' ⊢
    rw [hh w.doc.done _ rfl] at h'
    cases hw : w.html env with
    | error e => rw [hw] at h'; cases h'
    | ok b' =>
      rw [hw] at h'
      cases h'
      dsimp only
      rw [hh w.doc.done.done _ rfl, hw]
      exact ⟨_, rfl⟩

/-- Non-vacuity. -/
example : ¬ Contains t!"ab" t!"{{{" := by
  rintro ⟨a, b, h⟩
  have := congrArg List.length h
  simp only [List.length_append, List.length_cons, List.length_nil] at this
  omega

/-- Making HTML twice. -/
def twice (env : Env) (text : Text) : Option (Text × Text) :=
  (do let f ← Formatter.new.parse env text
      let r ← f.makeHtml env
      let r' ← r.2.makeHtml env
      return (htmlText r.1, htmlText r'.1) : Py (Text × Text)).toOption

example : twice {} t!"'''b'''" = some (t!"<div><strong>b\n</strong></div>", t!"<div><strong>b\n</strong></div>") := by
  decide

/-- The code writes the text of a block once more every time HTML is made. -/
theorem C63_false_again : twice {} t!"{{{\na\n}}}" =
    some (t!"<div></div><pre>a\n</pre>", t!"<div></div><pre>a\na\n</pre>") := by decide

/-- After `reset` the code writes nothing at all, whatever text follows: the line formatter still has the
old editor. -/
theorem C63_false_reset (env : Env) (f f' : Formatter) (text : Text) (h : f.reset.parse env text = .ok f') :
    ∃ f'', f'.makeHtml env = .ok ([], f'') := by
  unfold Formatter.parse Formatter.reset at h
  dsimp only at h
  cases hp : (f.lines.getD f.own).parseLines env (splitLines [] text) with
  | error e => simp only [bind, Except.bind, hp] at h; cases h
  | ok w =>
    simp only [bind, Except.bind, pure, Except.pure, hp] at h
    cases h
    exact ⟨_, rfl⟩

example : ∃ f', Formatter.new.reset.parse {} t!"a" = .ok f' := ⟨_, rfl⟩

end Bglib
