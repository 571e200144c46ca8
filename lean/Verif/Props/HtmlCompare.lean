import Verif.Lemmas.HtmlCompare
import Verif.Props.Doctree
/-
C72: the comparison of HTML in the tests.
-/
namespace Bglib
open Spec Doc

/-- **C72** What is compared, for all HTML made of texts without brackets and entities and of tags whose
names and values have only the letters known. -/
theorem C72_reads (h : Html) (hg : h.Good) : tupdict (nomalize h.write) = h.shown := tupdict_write hg

/-- A paragraph with an emphasised word. -/
def exampleHtml : Html := ⟨t!"so\n", [(⟨t!"p", [(t!"class", t!"x"), (t!"style", t!"top:1")]⟩, t!" one "), (⟨t!"/p", []⟩, [])]⟩

theorem exampleHtml_good : exampleHtml.Good := by
  refine ⟨⟨by decide, by decide, by decide⟩, ?_⟩
  intro x hx
  simp only [exampleHtml, List.mem_cons, List.not_mem_nil, or_false] at hx
  rcases hx with rfl | rfl
  · refine ⟨⟨⟨by decide, ?_⟩, ?_⟩, by decide, by decide, by decide⟩
    · unfold ElementChar AttrNameChar; decide
    · unfold AttrNameChar AttrValueChar AttrNameChar; decide
  · refine ⟨⟨⟨by decide, ?_⟩, fun x hx => absurd hx List.not_mem_nil⟩, by decide, by decide, by decide⟩
    unfold ElementChar AttrNameChar; decide

example : exampleHtml.write = t!"so\n<p class=\"x\" style=\"top:1\"> one </p>" ∧
    exampleHtml.shown = [.text t!"so", .tag t!"p" [(t!"class", t!"x"), (t!"style", t!"top:1")], .text t!"one",
      .tag t!"/p" [], .text []] := by decide

/-- **C72** (what holds) For such HTML the comparison passes only if the elements, attributes and texts are
the same, in the same order, but for newlines and blanks around texts; and it does pass if they are the same
with the attributes in the same order. -/
theorem C72_sound_partial (items : List (Text × Text) → List (Text × Text)) (hi : ItemsOf items) (g h : Html)
    (hg : g.Good) (hh : h.Good) :
    (htmlSame items g.write h.write = true → SameHtml g h) ∧ (g.shown = h.shown → htmlSame items g.write h.write = true) := by
  have key : g.shown.map (Token.seen items) = h.shown.map (Token.seen items) → SameHtml g h := by
    intro e
    unfold Html.shown at e
    rw [List.map_append, List.map_append] at e
    have hbody : ∀ a b : List (Tag × Text), (a.flatMap fun x => [Token.tag x.1.element x.1.attrs, .text (trimmed x.2)]).map (Token.seen items) =
        (b.flatMap fun x => [Token.tag x.1.element x.1.attrs, .text (trimmed x.2)]).map (Token.seen items) → SameBody a b := by
      intro a
      induction a with
      | nil =>
        intro b e
        cases b with
        | nil => trivial
        | cons y b => cases e
      | cons x a ih =>
        intro b e
        cases b with
        | nil => cases e
        | cons y b =>
          simp only [List.flatMap_cons, List.cons_append, List.nil_append, List.map_cons, Token.seen, List.cons.injEq,
            Token.tag.injEq, Token.text.injEq] at e
          obtain ⟨⟨e1, e2⟩, e3, e4⟩ := e
          exact ⟨e1, (hi _).symm.trans (e2 ▸ hi _), e3, ih b e4⟩
    have hno : ∀ (t : Text) (l : List Token) (a : List (Tag × Text)),
        (a.flatMap fun x => [Token.tag x.1.element x.1.attrs, .text (trimmed x.2)]).map (Token.seen items) = .text t :: l → False := by
      intro t l a e
      cases a with
      | nil => cases e
      | cons x a =>
        simp only [List.flatMap_cons, List.cons_append, List.map_cons, Token.seen, List.cons.injEq] at e
        exact Token.noConfusion e.1
    by_cases h1 : g.lead.filter (· ≠ '\n') = []
    · by_cases h2 : h.lead.filter (· ≠ '\n') = []
      · rw [if_pos h1, if_pos h2] at e
        exact ⟨⟨⟨fun _ => h2, fun _ => h1⟩, by unfold trimmed; rw [h1, h2]⟩, hbody _ _ (by simpa using e)⟩
      · rw [if_pos h1, if_neg h2] at e
        exact absurd (by simpa [Token.seen] using e) (hno _ _ _)
    · by_cases h2 : h.lead.filter (· ≠ '\n') = []
      · rw [if_neg h1, if_pos h2] at e
        exact absurd (by simpa [Token.seen] using e.symm) (hno _ _ _)
      · rw [if_neg h1, if_neg h2] at e
        simp only [List.map_cons, List.map_nil, Token.seen, List.cons_append, List.nil_append, List.cons.injEq,
          Token.text.injEq] at e
        exact ⟨⟨⟨fun h => absurd h h1, fun h => absurd h h2⟩, e.1⟩, hbody _ _ e.2⟩
  unfold htmlSame
  rw [C72_reads g hg, C72_reads h hh]
  constructor
  · intro e
    simp only [Bool.or_eq_true, decide_eq_true_eq] at e
    refine key ?_
    rcases e with e | e
    · rw [← C72_reads g hg, ← C72_reads h hh, e]
    · exact e
  · intro e
    rw [e]
    simp

example : ItemsOf attrDict := fun _ => List.Perm.refl _

/-- Full statement of C72: HTML that is shown differently is told apart; here for escaped text. -/
def C72_statement : Prop := ∀ (items : List (Text × Text) → List (Text × Text)) (a b : Text), ItemsOf items →
  htmlSame items (escape a) b = true → '<' ∉ b

/-- **C72 is false** of the code: the comparison does not look at `&`, `<` and `>` outside of tags.  Every
escaped text passes for the same text with a bare `<` in place of every `&`. -/
theorem C72_false_escape (items : List (Text × Text) → List (Text × Text)) (a : Text) :
    htmlSame items (escape a) ((escape a).map fun c => if c = '&' then '<' else c) = true := by
  have hn := (C36_no_brackets a).2
  have hn' : '>' ∉ (escape a).map rawAmp := by
    intro hm
    obtain ⟨c, hc, e⟩ := List.mem_map.1 hm
    unfold rawAmp at e
    split at e
    · exact absurd e (by decide)
    · exact hn (e ▸ hc)
  have hf : ∀ s : Text, (s.map rawAmp).filter (· ≠ '\n') = (s.filter (· ≠ '\n')).map rawAmp := by
    intro s
    rw [List.filter_map]
    congr 1
    apply List.filter_congr
    intro c _
    unfold rawAmp
    simp only [Function.comp]
    split
    · rename_i h; subst h; decide
    · rfl
  have e : tupdict (nomalize (escape a)) = tupdict (nomalize ((escape a).map rawAmp)) := by
    rw [nomalize_plain hn, nomalize_plain hn', hf]
    unfold tupdict finditer
    rw [List.length_map, raw_same _ _ (fun hm => hn (List.mem_filter.1 hm).1) true true]
  show htmlSame items (escape a) ((escape a).map rawAmp) = true
  unfold htmlSame
  rw [e]
  simp

theorem C72_false : ¬ C72_statement := by
  intro h
  have := h attrDict t!"&" _ (fun _ => List.Perm.refl _) (C72_false_escape attrDict t!"&")
  exact this (by decide)

/-- **C72** Entities pass for the letters they are made of, a bracket at the end for nothing, and a tag with a letter in
a value that is not known (here a question mark) for text. -/
theorem C72_false_tags : htmlSame attrDict t!"&lt;" t!"lt;" = true ∧ htmlSame attrDict t!"a<" t!"a" = true ∧
    htmlSame attrDict t!"<a href=\"/x?y\">" t!"a href=\"/x?y\">" = true := by
  decide

end Bglib
