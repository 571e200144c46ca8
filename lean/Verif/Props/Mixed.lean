import Verif.Lemmas.MixedDocs
import Verif.Props.Wiki
/-
C114: paragraphs with links, macros, and characters with a meaning in HTML are shown as they should be, and
the links lead where they say.
-/
namespace Bglib
open Doc Spec Spec.Mixed

/-- Every paragraph with links, macros and special characters in any order is shown as it should be, if
nothing comes behind a picture in its paragraph. -/
theorem C114_shown_partial (env : Env) (ps : List (List Mixed.Line)) (hnow : env.now ≠ [])
    (h : ∀ ls ∈ ps, ls ≠ [] ∧ (∀ l ∈ ls, Ordinary l) ∧ PicturesLast ls) : format env (text ps) = .ok (html env.now ps) :=
  mixed_shown env ps h hnow

/-- The links are those written, in their order, each of its class and with its address. -/
theorem C114_links (env : Env) (ps : List (List Mixed.Line)) (hnow : env.now ≠ [])
    (h : ∀ ls ∈ ps, ls ≠ [] ∧ (∀ l ∈ ls, Ordinary l) ∧ PicturesLast ls) :
    (linksOf env (text ps)).reverse.map (fun l => (l.lookup t!"class", l.lookup t!"href")) =
      (ps.flatMap fun ls => ls.flatMap (targets env.wikipath)).map fun x => (some x.1, some x.2) := by
  obtain ⟨w, e1, e2⟩ := mixed_led env ps h hnow
  rw [linksOf, e1]
  simp only [led, foundOf] at e2
  rw [List.map_reverse]
  exact e2

/-! What the theorems assume can be checked for a given text. -/

instance instSomeAll {α : Type} (o : Option α) (P : α → Prop) [DecidablePred P] : Decidable (∀ c, o = some c → P c) :=
  match o with
  | none => .isTrue (by simp)
  | some c => decidable_of_iff (P c) (by simp)

instance instSomeAny {α : Type} (o : Option α) (P : α → Prop) [DecidablePred P] : Decidable (∃ c, o = some c ∧ P c) :=
  match o with
  | none => .isFalse (by simp)
  | some c => decidable_of_iff (P c) (by simp)

instance (kind : Char → Bool) (t : Text) : Decidable (Filled kind t) := inferInstanceAs (Decidable (_ ∧ _))

instance : DecidablePred Link.Fit
  | .entry _ n | .query _ n | .game _ n => inferInstanceAs (Decidable (Filled digit n))
  | .page name => inferInstanceAs (Decidable (Filled letter name))
  | .camel parts => inferInstanceAs (Decidable (2 ≤ parts.length ∧ ∀ p ∈ parts, capital p.1 = true ∧ Filled small p.2))
  | .web _ r | .named _ r none => inferInstanceAs (Decidable (Filled urlChar r ∧ '&' ∉ r))
  | .named _ r (some d) => inferInstanceAs (Decidable ((Filled urlChar r ∧ '&' ∉ r) ∧ d ≠ [] ∧ ']' ∉ d ∧ '\n' ∉ d ∧ '\r' ∉ d))

instance (l : Link) (o : Option Char) : Decidable (l.Stops o) :=
  match l with
  | .entry _ _ | .query true _ | .game 0 _ | .game 1 _ => inferInstanceAs (Decidable (∀ c, o = some c → digit c = false))
  | .camel _ => inferInstanceAs (Decidable (∀ c, o = some c → small c = false ∧ capital c = false))
  | .web _ _ => inferInstanceAs (Decidable (∀ c, o = some c → urlChar c = false))
  | .query false _ | .game 2 _ | .page _ | .named _ _ _ => .isTrue trivial

instance (name : Text) (args : Option Text) : Decidable (MacroFit name args) := inferInstanceAs (Decidable (_ ∧ _ ∧ _ ∧ _ ∧ _))

instance : DecidablePred Elt.Fit
  | .plain u => inferInstanceAs (Decidable (u.all Document.plain = true))
  | .styled _ u => inferInstanceAs (Decidable (Filled Document.plain u))
  | .link l | .escaped l => inferInstanceAs (Decidable l.Fit)
  | .escapedMark _ => .isTrue trivial
  | .macro name args => inferInstanceAs (Decidable (MacroFit name args))
  | .special c => inferInstanceAs (Decidable (c = '<' ∨ c = '>' ∨ c = '&' ∨ c = '?'))

instance (e : Elt) (o : Option Char) : Decidable (e.Stops o) :=
  match e with
  | .link l | .escaped l => inferInstanceAs (Decidable (l.Stops o))
  | .styled s _ => inferInstanceAs (Decidable (o ≠ s.after.head?))
  | .escapedMark s => inferInstanceAs (Decidable (o ≠ s.before.head?))
  | .plain _ | .macro _ _ | .special _ => .isTrue trivial

instance instFitLine : (l : Mixed.Line) → Decidable (Mixed.Fit l)
  | [] => .isTrue trivial
  | e :: l => @instDecidableAnd e.Fit (e.Stops (write l).head? ∧ Mixed.Fit l) _ (@instDecidableAnd _ _ _ (instFitLine l))

instance (l : Mixed.Line) : Decidable (Ordinary l) := inferInstanceAs (Decidable (_ ∧ ∃ c, (write l).head? = some c ∧ c ≠ ' ' ∧ c ≠ '>'))

instance : DecidablePred Elt.Picture
  | .macro name args => inferInstanceAs (Decidable (IsPosition name args))
  | .plain _ | .styled _ _ | .link _ | .escaped _ | .escapedMark _ | .special _ => .isFalse (fun h => h)

instance (ls : List Mixed.Line) : Decidable (PicturesLast ls) := inferInstanceAs (Decidable (∀ e ∈ ls.flatten.dropLast, ¬ e.Picture))

/-- A text with all of them. -/
def mixedSample : List (List Mixed.Line) := [
  [[.plain t!"see ", .link (.entry false t!"12"), .plain t!" or ", .link (.camel [('W', t!"iki"), ('P', t!"age")]), .special '<'],
   [.link (.web true t!"example.org/a"), .plain t!" and ", .escaped (.query false t!"5"), .escapedMark .bold, .plain t!" ", .styled .italic t!"x"],
   [.macro t!"BR" none, .macro t!"Nothing" (some t!"1"), .link (.named false t!"a.b" (some t!"a < b")), .macro t!"Timestamp" none,
    .macro t!"Position" (some t!"aaaaaaaaaaaaaa:aaaaaaaaaaaa")]],
  [[.macro t!"Position" (some t!"no"), .link (.game 0 t!"3")]]]

example : ∀ ls ∈ mixedSample, ls ≠ [] ∧ (∀ l ∈ ls, Ordinary l) ∧ PicturesLast ls := by
  decide +kernel

example : text mixedSample = t!"see #12 or WikiPage<\nhttps://example.org/a and !{5}!''' ''x''\n[[BR]][[Nothing(1)]][http://a.b a < b][[Timestamp]][[Position(aaaaaaaaaaaaaa:aaaaaaaaaaaa)]]\n\n[[Position(no)]]m3\n\n" := by
  decide +kernel

/-- What comes behind the picture of a position in a paragraph is put inside the element of the picture. -/
theorem C114_false_position :
    htmlOf { now := t!"now" } t!"a [[Position(aaaaaaaaaaaaaa:aaaaaaaaaaaa)]] b\n\n" = some t!"<div>a \n<span><img /> b\n</span></div>" ∧
      format { now := t!"now" } (text [[[.plain t!"a ", .macro t!"Position" (some t!"aaaaaaaaaaaaaa:aaaaaaaaaaaa"), .plain t!" b"]]]) ≠
        .ok (html t!"now" [[[.plain t!"a ", .macro t!"Position" (some t!"aaaaaaaaaaaaaa:aaaaaaaaaaaa"), .plain t!" b"]]]) := by
  decide

/-- A macro, unlike links and marks, is run behind an exclamation mark. -/
theorem C114_false_escape : htmlOf { now := t!"now" } t!"a ![[BR]] b" = some t!"<div>a !\n<br /> b\n</div>" := by decide

end Bglib
