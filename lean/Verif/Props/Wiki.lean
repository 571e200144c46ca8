import Verif.Lemmas.WikiHtml
/-
Wiki text: C40.
-/
namespace Bglib
open Spec Doc

/-! ### C40: formatting wiki text -/

/-- The HTML of any text is balanced, if what docutils makes is. -/
theorem C40_balanced (env : Env) (text : Text) (b : List Tok) (hr : ∀ s, Balanced (env.rst s))
    (h : format env text = .ok b) : Balanced b := by
  rcases format_ok env text with ⟨b', h1, h2, _⟩ | ⟨e, h1, _⟩
  · rw [h] at h1; cases h1; exact h2 hr
  · rw [h] at h1; cases h1

/-- Formatting any text ends; it fails only with the exceptions of `MayFail`, and only if the text has
what `MayFail` says. -/
theorem C40_errors_partial (env : Env) (text : Text) :
    (∃ b, format env text = .ok b) ∨ ∃ e, format env text = .error e ∧ MayFail env text e := by
  rcases format_ok env text with ⟨b, h1, _⟩ | h
  · exact Or.inl ⟨b, h1⟩
  · exact Or.inr h

/-- Without those macros and without items marked by signs formatting succeeds. -/
theorem C40_total_partial (env : Env) (text : Text) (h1 : ¬ Contains text t!"[[Position]]")
    (h2 : ¬ Contains text t!"[[Analysis") (h3 : ¬ Contains text t!"[[TableOfContent") (h4 : ¬ SignLine text) :
    ∃ b, format env text = .ok b := by
  rcases format_ok env text with ⟨b, h, _⟩ | ⟨e, _, h⟩
  · exact ⟨b, h⟩
  · exfalso
    have hsub : ∀ s : Text, Contains text (t!"[[Analysis" ++ s) → False := by
      rintro s ⟨a, b, rfl⟩
      exact h2 ⟨a, s ++ b, by simp⟩
    cases e with
    | typeError => exact h.elim h1 (hsub t!"]]")
    | attributeError => exact h.elim h3 fun h => hsub t!"(" h.1
    | assertion => exact hsub t!"(" h.1
    | keyError => exact h4 h
    | _ => exact h

/-- The text between the tags has no angle brackets and `&` only in entities, if the text has no web
address with `&` and what comes from outside is safe. -/
theorem C40_safe_partial (env : Env) (text : Text) (b : List Tok) (he : EnvSafe env)
    (hu : ∀ u, AmpUrl u → ¬ Contains text u) (h : format env text = .ok b) (t : Text) (ht : .text t ∈ b) :
    SafeText t := by
  rcases format_ok env text with ⟨b', h1, _, h2⟩ | ⟨e, h1, _⟩
  · rw [h] at h1
    cases h1
    exact h2 (fun hU => hU.elim (fun h => h he) fun ⟨u, h3, h4⟩ => hu u h4 h3) t ht
  · rw [h] at h1; cases h1

/-- The table of contents of a document is written exactly if all children of headings are texts or links;
otherwise it is an AttributeError. -/
theorem C40_toc (e : Editor) :
    ((∀ h ∈ e.headings, none ∉ h.2) → ∃ b, tocHtml e = .ok b ∧ Balanced b) ∧
    ((∃ h ∈ e.headings, none ∈ h.2) → tocHtml e = .error .attributeError) := by
  rcases toc_ok (U := True) e (fun h => absurd trivial h) with ⟨⟨h, h1, h2⟩, h3⟩ | ⟨h1, b, h2, h3, _⟩
  · exact ⟨fun h4 => absurd h2 (h4 h h1), fun _ => h3⟩
  · exact ⟨fun _ => ⟨b, h2, h3⟩, fun ⟨h, h4, h5⟩ => absurd h5 (h1 h h4)⟩

/-- Texts with their HTML. -/
def htmlOf (env : Env) (text : Text) : Option Text := (format env text).toOption.map htmlText

/-- Non-vacuity. -/
example : htmlOf {} t!"= a =\n'''b''' <" =
    some t!"<div><h1> a \n</h1><strong>b\n</strong> &lt;\n</div>" := by decide
example : htmlOf {} t!" * a\n * b\n\n[[BR]]#12" =
    some t!"<div><ul><li>a\n</li><li>b\n</li></ul></div><div><br /><a>#12\n</a></div>" := by decide
example : htmlOf {} t!"[[TableOfContent]]\n= b =" =
    some t!"<div></div><ol><li><a> b \n</a></li></ol><div><h1> b \n</h1></div>" := by decide
example : htmlOf {} t!"'''a ''b''' c" =
    some t!"<div><strong>a \n<i>b\n</i></strong> c\n</div>" := by decide

/-- The hypotheses of `C40_total_partial` and `C40_safe_partial` can hold. -/
example : EnvSafe {} := ⟨.nil, (fun f h => by cases h), (fun s t h => by simp at h)⟩
example : ¬ Contains t!"a" t!"[[Position]]" ∧ ¬ Contains t!"a" t!"[[Analysis" ∧ ¬ Contains t!"a" t!"[[TableOfContent" ∧
    ¬ SignLine t!"a" ∧ ∀ u, AmpUrl u → ¬ Contains t!"a" u := by
  have hlen : ∀ s : Text, Contains t!"a" s → s.length ≤ 1 := by
    rintro s ⟨a, b, h⟩
    have := congrArg List.length h
    simp only [List.length_append, List.length_cons, List.length_nil] at this
    omega
  refine ⟨fun h => absurd (hlen _ h) (by decide), fun h => absurd (hlen _ h) (by decide),
    fun h => absurd (hlen _ h) (by decide), ?_, ?_⟩
  · rintro ⟨a, b, n, c, h, _⟩
    have := congrArg List.length h
    simp only [List.length_append, List.length_cons, List.length_nil, List.length_replicate] at this
    omega
  · rintro u ⟨r, rfl | rfl, _⟩ h <;>
    · have := hlen _ h
      simp only [List.length_append, List.length_cons, List.length_nil] at this
      omega

/-- The code does not format every text: a macro without the arguments it needs, … -/
theorem C40_false_position : format {} t!"[[Position]]" = .error .typeError := by decide

/-- … an item without sign in a list of items with signs, … -/
theorem C40_false_sign : format {} t!" + a\n * b" = .error .keyError := by decide

/-- … a table of contents with a heading with bold text, … -/
theorem C40_false_toc : format {} t!"[[TableOfContent]]\n= '''b''' =" = .error .attributeError := by decide

/-- … an analysis without database. -/
theorem C40_false_analysis :
    format {} t!"[[Analysis(aaaaaaaaaaaaaa:aaaaaaaaaaaa)]]" = .error .attributeError := by decide

/-- The code writes `&` of an address as it is. -/
theorem C40_false_escape : htmlOf {} t!"http://a/?b&c" = some t!"<div><a><span>http://a/?b&c\n</span></a></div>" := by
  decide

/-- Text after a preformatted block is put before the block. -/
theorem C40_false_order : htmlOf {} t!"a\n{{{\nb\n}}}\nc" = some t!"<div>ac\n</div><pre>b\n</pre>" := by decide

/-- The attributes of the links of a text. -/
def linksOf (env : Env) (text : Text) : List (List (Text × Text)) :=
  match Wiki.start.parse env text with
  | .ok w => w.side.filterMap fun x => match x.2 with
    | .attrs l => some l
    | _ => none
  | .error _ => []

/-- The title of a link can end the attribute and add others. -/
theorem C40_false_title :
    (linksOf {} t!"[http://a x\" onclick=\"f()]").map (fun l => l.map fun x => attributeText x.1 x.2) =
    [[t!"class=\"ext-link\"", t!"title=\"x\" onclick=\"f()\"", t!"href=\"http://a\""]] := by decide

end Bglib
