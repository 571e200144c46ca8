import Verif.Spec.FormatScript
import Verif.Props.WikiFormatter
import Verif.Props.Wiki
/-
C121: the script writes a page with the title asked for that shows the document.
-/
namespace Bglib
open Spec Doc Script

/-- The first line of the page, with the title as it is. -/
private def firstLine (title : Text) : Text :=
  t!"<html>\n<head>\n<title>" ++ title ++
    t!"</title></head><body><link rel=\"stylesheet\" type=\"text/css\" href=\"backgammonbase.css\">"

private theorem percent_plain : ∀ (p r : Text) (as : List Text), '%' ∉ p →
    percent (p ++ r) as = (do return p ++ (← percent r as))
  | [], r, as, _ => by rw [List.nil_append]; cases percent r as <;> rfl
  | c :: p, r, as, h => by
    have hc : c ≠ '%' := fun e => h (by simp [e])
    have ih := percent_plain p r as fun e => h (by simp [e])
    have e : percent (c :: (p ++ r)) as = (do return c :: (← percent (p ++ r) as)) := by
      rw [percent] <;> intros <;> simp_all
    rw [List.cons_append, e, ih]
    cases percent r as <;> rfl

private theorem header_eq (title : Text) : header title = .ok (firstLine title) := by
  have e : headerTemplate = t!"<html>\n<head>\n<title>" ++ ('%' :: 's' ::
      (t!"</title></head><body><link rel=\"stylesheet\" type=\"text/css\" href=\"backgammonbase.css\">" ++ [])) := by decide
  unfold header
  rw [e, percent_plain _ _ _ (by decide), percent, percent_plain _ _ _ (by decide)]
  simp only [percent, bind, Except.bind, pure, Except.pure, firstLine, List.append_nil, List.append_assoc]

private theorem encode_ok {t : Text} (h : AsciiText t) : encodeBytes t = .ok t := by
  unfold encodeBytes
  rw [if_pos (by simpa [List.all_eq_true, AsciiText] using h)]

private theorem encode_error {t : Text} (h : ¬ AsciiText t) : encodeBytes t = .error .valueError := by
  unfold encodeBytes
  rw [if_neg]
  intro hh
  exact h (by simpa [List.all_eq_true, AsciiText] using hh)

private theorem first_ascii (title : Text) : AsciiText (firstLine title) ↔ AsciiText title := by
  have h1 : AsciiText t!"<html>\n<head>\n<title>" := by unfold AsciiText; decide
  have h2 : AsciiText t!"</title></head><body><link rel=\"stylesheet\" type=\"text/css\" href=\"backgammonbase.css\">" := by
    unfold AsciiText; decide
  unfold firstLine
  constructor
  · intro h c hc
    exact h c (by simp only [List.mem_append]; exact .inl (.inr hc))
  · intro h c hc
    simp only [List.mem_append] at hc
    rcases hc with (hc | hc) | hc
    · exact h1 c hc
    · exact h c hc
    · exact h2 c hc

private theorem title_eq (args : List Text) : titleOf args = titleAsked args := by
  cases args <;> rfl

private theorem escape_same {t : Text} (h : NoMarkup t) : escape t = t := by
  induction t with
  | nil => rfl
  | cons c r ih =>
    obtain ⟨h1, h2, h3⟩ := h c (by simp)
    have := ih fun d hd => h d (by simp [hd])
    simp only [escape, List.flatMap_cons, escapeChar, if_neg h1, if_neg h2, if_neg h3] at this ⊢
    rw [this]
    rfl

section
variable (decode : Text → Py Text) (now : Text) (rst : Text → List Tok) (db : Text → Text → Analysis)

/-- What is printed and how it ends, for all inputs. -/
private theorem script_cases (args : List Text) (stdin : Text) :
    ((∃ e, (script decode now rst db args stdin) = ⟨[], some e⟩) ∨
     (∃ e, AsciiText (titleAsked args) ∧
        script decode now rst db args stdin = ⟨[.text (firstLine (titleAsked args) ++ ['\n'])], some e⟩) ∨
     ∃ b, AsciiText (titleAsked args) ∧ (do format (outside now rst) (← decode stdin)) = .ok b ∧
       script decode now rst db args stdin =
        ⟨[.text (firstLine (titleAsked args) ++ ['\n']), .html b, .text t!"\n", .text t!"</body></html>\n"], none⟩) ∧
    ((script decode now rst db args stdin).failed ≠ none → ¬ AsciiText (titleAsked args) ∨
      ∃ e, (do format (outside now rst) (← decode stdin)) = .error e ∧
        (script decode now rst db args stdin).failed = some e) := by
  unfold script
  cases hd : decode stdin with
  | error e => exact ⟨.inl ⟨e, rfl⟩, fun _ => .inr ⟨e, rfl, rfl⟩⟩
  | ok text =>
    have hf := C63_first (outside now rst) text
    cases hp : Formatter.new.parse (outside now rst) text with
    | error e =>
      rw [hp] at hf
      refine ⟨.inl ⟨e, ?_⟩, fun _ => .inr ⟨e, ?_, ?_⟩⟩
      · simp only [bind, Except.bind, hp]
      · exact hf.symm
      · simp only [bind, Except.bind, hp]
    | ok f =>
      rw [hp] at hf
      by_cases ha : AsciiText (titleAsked args)
      · have e1 : (do encodeBytes (← header (titleOf args))) = .ok (firstLine (titleAsked args)) := by
          rw [title_eq, header_eq]
          exact encode_ok ((first_ascii _).2 ha)
        have e2 : encodeBytes footer = .ok t!"</body></html>" := by decide
        simp only [bind, Except.bind] at e1 hf ⊢
        simp only [hp, e1, e2]
        cases hm : f.makeHtml (outside now rst) with
        | error e =>
          rw [hm] at hf
          exact ⟨.inr (.inl ⟨e, ha, rfl⟩), fun _ => .inr ⟨e, hf.symm, rfl⟩⟩
        | ok r =>
          rw [hm] at hf
          exact ⟨.inr (.inr ⟨r.1, ha, hf.symm, rfl⟩), fun h => absurd rfl h⟩
      · have e1 : (do encodeBytes (← header (titleOf args))) = .error .valueError := by
          rw [title_eq, header_eq]
          exact encode_error fun h => ha ((first_ascii _).1 h)
        simp only [bind, Except.bind] at e1 ⊢
        simp only [hp, e1]
        exact ⟨.inl ⟨_, rfl⟩, fun _ => .inl ha⟩

/-- Without markup in an ASCII title the page is written exactly for the documents that can be formatted.  Missing: other
titles (C121_false_title, C121_false_ascii). -/
theorem C121_page_partial (args : List Text) (ha : AsciiText (titleAsked args)) (hm : NoMarkup (titleAsked args)) (stdin : Text)
    (r : Ran) (h : script decode now rst db args stdin = r) :
    (∀ b, (do format (outside now rst) (← decode stdin)) = .ok b → r = ⟨pageOf (titleAsked args) b, none⟩) ∧
    ∀ e, (do format (outside now rst) (← decode stdin)) = .error e → r.failed = some e := by
  obtain ⟨h1, h2⟩ := script_cases decode now rst db args stdin
  rw [h] at h1 h2
  refine ⟨fun b hb => ?_, fun e he => ?_⟩
  · have hn : r.failed = none := by
      by_cases hn : r.failed = none
      · exact hn
      · rcases h2 hn with hx | ⟨e, he, _⟩
        · exact absurd ha hx
        · rw [hb] at he; cases he
    rcases h1 with ⟨e, h1⟩ | ⟨e, _, h1⟩ | ⟨b', _, hb', h1⟩
    · rw [h1] at hn; cases hn
    · rw [h1] at hn; cases hn
    · rw [hb] at hb'
      cases hb'
      rw [h1, pageOf, escape_same hm]
      simp [firstLine]
  · rcases h1 with ⟨e', h1⟩ | ⟨e', _, h1⟩ | ⟨b', _, hb', h1⟩
    · rcases h2 (by rw [h1]; simp) with hx | ⟨e2, he2, hf⟩
      · exact absurd ha hx
      · rw [he] at he2; cases he2; exact hf
    · rcases h2 (by rw [h1]; simp) with hx | ⟨e2, he2, hf⟩
      · exact absurd ha hx
      · rw [he] at he2; cases he2; exact hf
    · rw [he] at hb'; cases hb'

/-- False of titles that are not ASCII: nothing is printed, whatever the document. -/
theorem C121_false_ascii (args : List Text) (ha : ¬ AsciiText (titleAsked args)) (stdin : Text) :
    (script decode now rst db args stdin).printed = [] ∧ (script decode now rst db args stdin).failed ≠ none := by
  obtain ⟨⟨e, h⟩ | ⟨e, h, _⟩ | ⟨b, h, _⟩, _⟩ := script_cases decode now rst db args stdin
  · rw [h]; exact ⟨rfl, by simp⟩
  · exact absurd h ha
  · exact absurd h ha

/-- False of titles with markup: they are written as they are, so that the page is never the one asked for. -/
theorem C121_false_title (args : List Text) (hm : ¬ NoMarkup (titleAsked args)) (stdin : Text) (b : List Tok) :
    (script decode now rst db args stdin).printed ≠ pageOf (titleAsked args) b := by
  have hl : ∀ t : Text, t.length ≤ (escape t).length ∧ (¬ NoMarkup t → t.length < (escape t).length) := by
    intro t
    induction t with
    | nil => exact ⟨Nat.le_refl _, fun h => absurd (fun c hc => by cases hc) h⟩
    | cons c r ih =>
      have e : escape (c :: r) = escapeChar c ++ escape r := rfl
      rw [e, List.length_append, List.length_cons]
      have h1 : 1 ≤ (escapeChar c).length := by
        unfold escapeChar
        split
        · decide
        · split
          · decide
          · split <;> simp
      refine ⟨by omega, fun hn => ?_⟩
      by_cases hc : c = '<' ∨ c = '>' ∨ c = '&'
      · have : 2 ≤ (escapeChar c).length := by rcases hc with rfl | rfl | rfl <;> decide
        omega
      · have := ih.2 fun hr => hn fun d hd => by
          rcases List.mem_cons.1 hd with rfl | hd
          · exact ⟨fun h => hc (.inl h), fun h => hc (.inr (.inl h)), fun h => hc (.inr (.inr h))⟩
          · exact hr d hd
        omega
  obtain ⟨⟨e, h⟩ | ⟨e, _, h⟩ | ⟨b', _, _, h⟩, _⟩ := script_cases decode now rst db args stdin
  · rw [h]; simp [pageOf]
  · rw [h]; simp [pageOf]
  · rw [h]
    intro hh
    have h0 := congrArg List.head? hh
    simp only [pageOf, List.head?_cons, Option.some.injEq, Piece.text.injEq] at h0
    have h2 := congrArg List.length h0
    have h3 := (hl (titleAsked args)).2 hm
    simp only [firstLine, List.length_append, List.length_cons, List.length_nil] at h2
    omega

/-- A page is written as a whole, or only its beginning, or nothing. -/
theorem C121_printed (args : List Text) (stdin : Text) :
    (script decode now rst db args stdin).printed = [] ∨ (script decode now rst db args stdin).printed.length = 1 ∨
    ∃ b, (do format (outside now rst) (← decode stdin)) = .ok b ∧ (script decode now rst db args stdin).failed = none ∧
      .html b ∈ (script decode now rst db args stdin).printed := by
  obtain ⟨⟨e, h⟩ | ⟨e, _, h⟩ | ⟨b, _, hb, h⟩, _⟩ := script_cases decode now rst db args stdin
  · rw [h]; exact .inl rfl
  · rw [h]; exact .inr (.inl rfl)
  · rw [h]; exact .inr (.inr ⟨b, hb, rfl, by simp⟩)

/-- False of the end of the page: for a document whose HTML cannot be made the page is begun and not ended. -/
theorem C121_false_half : (script .ok now rst db [] t!" + a\n * b").printed.length = 1 ∧
    (script .ok now rst db [] t!" + a\n * b").failed = some .keyError := by
  have h : ∃ f, Formatter.new.parse (outside now rst) t!" + a\n * b" = .ok f ∧ f.makeHtml (outside now rst) = .error .keyError :=
    ⟨_, rfl, rfl⟩
  obtain ⟨f, h1, h2⟩ := h
  have e1 : (do encodeBytes (← header (titleOf []))) = .ok (firstLine t!"Backgammon Document") := by decide +kernel
  unfold script
  simp only [bind, Except.bind] at e1 ⊢
  simp only [h1, e1, h2]
  exact ⟨rfl, trivial⟩

/-- False of the database: the script makes one and gives it to the formatter, but analyses are asked for elsewhere.  Of a
position the database knows nothing is printed, though with the database the document could be formatted. -/
theorem C121_false_analysis (args : List Text) (hn : ∀ p m, (db p m).numbered = true) :
    script .ok now rst db args t!"[[Analysis(vzsAAFhu2xFABA:QYkqASAAIAAA)]]" = ⟨[], some .attributeError⟩ ∧
    ∃ b, format { outside now rst with db := some db } t!"[[Analysis(vzsAAFhu2xFABA:QYkqASAAIAAA)]]" = .ok b := by
  constructor
  · have h : Formatter.new.parse (outside now rst) t!"[[Analysis(vzsAAFhu2xFABA:QYkqASAAIAAA)]]" = .error .attributeError := rfl
    unfold script
    simp only [bind, Except.bind, h]
  · rcases C40_errors_partial { outside now rst with db := some db } t!"[[Analysis(vzsAAFhu2xFABA:QYkqASAAIAAA)]]" with h | ⟨e, _, h⟩
    · exact h
    · exfalso
      have hc : ∀ {t s : Text} (c : Char), c ∈ s → c ∉ t → ¬ Contains t s := by
        rintro t s c h1 h2 ⟨a, b, rfl⟩
        exact h2 (by simp [h1])
      have hi : ∀ {t s : Text}, ¬ s <:+: t → ¬ Contains t s := by
        rintro t s h1 ⟨a, b, rfl⟩
        exact h1 ⟨a, b, rfl⟩
      cases e <;> simp only [MayFail] at h
      case typeError =>
        rcases h with h | h
        · exact hc 'P' (by decide) (by decide) h
        · exact hi (by decide) h
      case attributeError =>
        rcases h with h | ⟨_, h⟩
        · exact hc 'T' (by decide) (by decide) h
        · cases h
      case assertion =>
        obtain ⟨_, f, p, m, hf, hx⟩ := h
        cases hf
        rw [hn] at hx
        cases hx
      case keyError =>
        obtain ⟨a, b, n, c, h, _⟩ := h
        have : ' ' ∈ t!"[[Analysis(vzsAAFhu2xFABA:QYkqASAAIAAA)]]" := by
          rw [h, List.replicate_succ]
          simp
        exact absurd this (by decide)

end

/- Non-vacuity: a document and a title with which a page is written (C121_page_partial), one with a letter that is not
ASCII (C121_false_ascii), one with markup (C121_false_title), and a database (C121_false_analysis). -/
example : AsciiText (titleAsked [t!"Races"]) ∧ NoMarkup (titleAsked [t!"Races"]) ∧
    script .ok [] (fun _ => []) (fun _ _ => .moves []) [t!"Races"] t!"'''a''' b" =
      ⟨pageOf t!"Races" [.opening t!"div", .opening t!"strong", .text t!"a", .text t!"\n", .closing t!"strong",
        .text t!" b", .text t!"\n", .closing t!"div"],
        none⟩ := by
  refine ⟨by unfold AsciiText; decide, by unfold NoMarkup; decide, by decide +kernel⟩

example : ¬ AsciiText (titleAsked [[Char.ofNat 228]]) := by unfold AsciiText; decide

example : ¬ NoMarkup (titleAsked [t!"You & I"]) := by unfold NoMarkup; decide

example : ∀ p m, ((fun _ _ => .moves [] : Text → Text → Analysis) p m).numbered = true := fun _ _ => rfl

end Bglib
