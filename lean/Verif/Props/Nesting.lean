import Verif.Lemmas.NestingHtml
import Verif.Lemmas.LadderSteps
import Verif.Lemmas.Reading
/-
Where elements stand on formatted pages: C108.
-/
namespace Bglib
open Spec Doc Spec.Nesting

/-! ### C108: pages keep to the type of document they declare -/

/-- Documents written as they should be (C92) become pages on which every element and every text is where it may be. -/
theorem C108_documents (env : Env) (blocks : List Document.Block) (h : ∀ b ∈ blocks, b.Fit) :
    ∃ b, format env (Document.text blocks) = .ok b ∧ RightPage b = true :=
  ⟨_, document_shown env blocks h, Nesting.html_right blocks⟩

/-- Whatever the text is, everything is where it may be, but for the strays.  Missing: the strays themselves (C108_strays), and
texts with a table of contents (C108_false_contents). -/
theorem C108_where_partial (env : Env) (hr : ∀ s, Balanced (env.rst s) ∧ RightPage (env.rst s) = true) (text : Text)
    (hc : ¬ Contains text t!"[[TableOfContent") (b : List Tok) (h : format env text = .ok b) :
    Obeys (fun p => inside p ++ strays p) [t!"body"] b = true :=
  Nesting.format_wide env hr text hc b h

/-- A line with everything that is part of a line but pictures. -/
def C108_line : Text := t!"a `a` [[BR]] '''a''' ''a'' ~~a~~ ,,a,, ^a^ SomeWord"

/-- Texts that become pages with strays. -/
def C108_texts : List Text :=
  [t!"|| a ||\n" ++ C108_line, t!">> a\n" ++ C108_line, t!"a::\n" ++ C108_line, t!"a::\na\n * a", t!"a::\na\n 1. a", t!"  * a", t!"  1. a",
   t!"> a\n>> b", t!"|| a || b ||\n * || a", t!"'''x\na ''' b::"]

/-- Non-vacuity: such a text. -/
example : ∃ b, format {} (t!"|| a ||\n" ++ C108_line) = .ok b ∧ Obeys (fun p => inside p ++ strays p) [t!"body"] b = true ∧ RightPage b = false := by
  refine ⟨((format {} (t!"|| a ||\n" ++ C108_line)).toOption).getD [], ?_, ?_, ?_⟩ <;> decide +kernel

/-- Pages for documents. -/
example : ∃ b, format {} (Document.text [.text [.line [.plain t!"a"]]]) = .ok b ∧ b ≠ [] ∧ RightPage b = true := by
  refine ⟨((format {} (Document.text [.text [.line [.plain t!"a"]]])).toOption).getD [], ?_, ?_, ?_⟩ <;> decide +kernel

/-- What is in what on the page for a text. -/
def C108_places (text : Text) : List (Text × Text) := ((format {} text).toOption.map (Nesting.places [t!"body"])).getD []

/-- All the strays occur. -/
theorem C108_strays (p t : Text) (h : t ∈ strays p) (h' : t ∉ inside p) :
    ∃ text, ¬ Contains text t!"[[TableOfContent" ∧ ∃ b, format {} text = .ok b ∧ (p, t) ∈ Nesting.places [t!"body"] b := by
  have hp : p ∈ [t!"table", t!"blockquote", t!"dl", t!"ul", t!"p", t!"li", t!"div"] := by
    unfold strays at h
    simp only [List.mem_cons, List.not_mem_nil, or_false] at h ⊢
    repeat' split at h
    all_goals first
      | (simp_all; done)
      | (rename_i hx; rcases hx with hx | hx <;> simp [hx])
  have key : ∀ p ∈ [t!"table", t!"blockquote", t!"dl", t!"ul", t!"p", t!"li", t!"div"], ∀ t ∈ strays p, t ∉ inside p →
      ∃ text ∈ C108_texts, (p, t) ∈ C108_places text := by decide +kernel
  obtain ⟨text, h1, h2⟩ := key p hp t h h'
  refine ⟨text, ?_, ?_⟩
  · have : 'C' ∉ text := by
      have : ∀ x ∈ C108_texts, 'C' ∉ x := by decide +kernel
      exact this text h1
    rintro ⟨a, b, rfl⟩
    exact this (by simp)
  · unfold C108_places at h2
    cases hf : format {} text with
    | error e => rw [hf] at h2; simp [Except.toOption] at h2
    | ok b =>
      rw [hf] at h2
      exact ⟨b, rfl, h2⟩

/-- The property is false: text in the line after a table is in the table, but not in a row of it. -/
theorem C108_false : ∃ text b, format {} text = .ok b ∧ RightPage b = false :=
  ⟨t!"|| a ||\nb", ((format {} t!"|| a ||\nb").toOption).getD [], by decide +kernel, by decide +kernel⟩

/-- In tables of contents lists are in lists, without an item between. -/
theorem C108_false_contents : (t!"ol", t!"ol") ∈ C108_places t!"== A ==\n[[TableOfContent]]" ∧ t!"ol" ∉ inside t!"ol" ++ strays t!"ol" := by
  decide +kernel

end Bglib
