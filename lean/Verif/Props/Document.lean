import Verif.Lemmas.LadderSteps
import Verif.Lemmas.Reading
/-
Whole documents: C92, C93, C94.
-/
namespace Bglib
open Spec Doc Spec.Document

/-! ### C92: documents look as they are meant -/

/-- The HTML of a document is that of its blocks, one after the other.  Missing: quoted lines that begin
like an item (C92_false_quoted). -/
theorem C92_shown_partial (env : Env) (blocks : List Block) (h : ∀ b ∈ blocks, b.Fit) :
    format env (text blocks) = .ok (html blocks) := document_shown env blocks h

/-- A line and another, with stretches in all types. -/
def C92_lines : Line × Line :=
  ([.plain t!"word ", .styled .bold t!"bo", .plain t!" ", .styled .code t!"co", .plain t!" ", .styled .italic t!"it"],
    [.styled .sup t!"su", .plain t!" ", .styled .sub t!"x", .plain t!"y", .styled .strike t!"no", .plain t!" ", .styled .mono t!"m",
      .plain t!" ", .styled .underline t!"end"])

/-- A document with all kinds of blocks. -/
def C92_document : List Block :=
  let l1 := C92_lines.1
  let l2 := C92_lines.2
  [.text [.line l1, .line l2, .heading 2 l1, .line l2],
   .items (.item .star l1 [l2] (.item (.roman 2 true) l2 [] (.item (.sign true 1) l1 [l1, l2] .none (.item (.sign false 0) [] [] .none .none)) .none)
     (.item (.alpha 0 false) l2 [] (.item (.numeric 7 true) l1 [] .none .none) .none)),
   .quote [l1, l2], .cited 2 [l1, l2], .table [[l1, l2], [[]], [[], l2]],
   .terms [(t!"word", [l1, l2]), (t!"other word", [])], .code [t!"if A < B:", [], t!"  {{{"]]

/-- Non-vacuity: the document is fit. -/
example : ∀ b ∈ C92_document, b.Fit := by
  have h1 : Ordinary C92_lines.1 := by simp [Ordinary, C92_lines, Fit, Piece.text, Piece.isPlain, Document.write, Piece.write]; decide
  have h2 : Ordinary C92_lines.2 := by simp [Ordinary, C92_lines, Fit, Piece.text, Piece.isPlain, Document.write, Piece.write]; decide
  have q1 : Quoted C92_lines.1 := by
    refine ⟨h1.1, h1.2.1, fun c hc => ?_⟩
    have : c = 'w' := (Option.some.inj hc).symm
    subst this; decide
  have q2 : Quoted C92_lines.2 := by
    refine ⟨h2.1, h2.2.1, fun c hc => ?_⟩
    have : c = '^' := (Option.some.inj hc).symm
    subst this; decide
  have w1 : Ordinary [.plain t!"word"] := by simp [Ordinary, Fit, Piece.text, Document.write, Piece.write]; decide
  have w2 : Ordinary [.plain t!"other word"] := by simp [Ordinary, Fit, Piece.text, Document.write, Piece.write]; decide
  have n : Fit [] := trivial
  intro b hb
  simp only [C92_document, List.mem_cons, List.not_mem_nil, or_false] at hb
  rcases hb with rfl | rfl | rfl | rfl | rfl | rfl | rfl
  · exact ⟨by simp, by simp [Part.Fit, h1, h2, h1.1]⟩
  · refine ⟨by simp, ?_⟩
    simp [Items.Fit, Items.signed, Mark.isSign, h1, h2, h1.1, h2.1, n]
  · exact ⟨by simp, by simp [q1, q2]⟩
  · exact ⟨by simp, by simp [h1.1, h2.1]⟩
  · exact ⟨by simp, by simp [h1.1, h2.1, n]⟩
  · exact ⟨by simp, by simp [q1, q2, w1, w2]⟩
  · simp only [Block.Fit, List.mem_cons, List.not_mem_nil, or_false, forall_eq_or_imp, forall_eq]
    decide

/-- The beginning of it: a paragraph. -/
example : html [.text [.line C92_lines.1]] =
    [.opening t!"div", .text t!"word ", .text t!"\n", .opening t!"strong", .text t!"bo", .text t!"\n", .closing t!"strong",
      .text t!" ", .text t!"\n", .opening t!"span", .text t!"co", .text t!"\n", .closing t!"span",
      .text t!" ", .text t!"\n", .opening t!"i", .text t!"it", .text t!"\n", .closing t!"i", .closing t!"div"] := by decide

/-- False for quoted lines that begin like an item: the line `  a word` is an item of a list. -/
theorem C92_false_quoted :
    Fit [.plain t!"a word"] ∧ format {} (text [.quote [[.plain t!"a word"]]]) ≠ .ok (html [.quote [[.plain t!"a word"]]]) := by
  exact ⟨⟨by decide, by decide⟩, by decide +kernel⟩

/-! ### C93: the words shown are the words written -/

/-- Where there is a space between all pieces, those of different lines included, the words shown are the
words written.  Missing: other paragraphs (C93_false_lines, C93_false_stretch). -/
theorem C93_words_partial (env : Env) (ls : List Line) (h0 : ls ≠ []) (h : ∀ l ∈ ls, Ordinary l) (hl : Loose ls.flatten) :
    ∃ t, format env (text [.text (ls.map .line)]) = .ok t ∧ wordsOf (visible t) = wordsOf (unmarked ls) := by
  refine ⟨html [.text (ls.map .line)], document_shown env _ ?_, ?_⟩
  · intro b hb
    simp only [List.mem_cons, List.not_mem_nil, or_false] at hb
    subst hb
    refine ⟨by simpa using h0, ?_⟩
    intro p hp
    obtain ⟨l, hl, rfl⟩ := List.mem_map.1 hp
    exact h l hl
  · have e : html [.text (ls.map .line)] = element t!"div" (flow [] ls.flatten) := by
      simp [html, Block.html, lines_html]
    rw [e, visible_element, flow_words _ _ hl (Or.inl rfl), unmarked_words ls hl, wordsOf_nil, List.nil_append]

/-- Non-vacuity: a paragraph of two lines, with a space at the end of the first. -/
example : (∀ l ∈ [[.plain t!"good ", .styled .bold t!"move"], [.styled .bold t!" now"]], Ordinary l) ∧
    Loose [.plain t!"good ", .styled .bold t!"move", .styled .bold t!" now"] ∧
    wordsOf (unmarked [[.plain t!"good ", .styled .bold t!"move"], [.styled .bold t!" now"]]) = [t!"good", t!"move", t!"now"] := by
  refine ⟨by simp [Ordinary, Fit, Piece.text, Piece.isPlain, Document.write, Piece.write]; decide, by simp [Loose, Apart, Piece.text], by decide⟩

/-- False at the end of a line: the words before and behind it are joined. -/
theorem C93_false_lines (env : Env) :
    ∃ t, format env (text [.text [.line [.plain t!"good"], .line [.plain t!"move"]]]) = .ok t ∧
      wordsOf (unmarked [[.plain t!"good"], [.plain t!"move"]]) = [t!"good", t!"move"] ∧ wordsOf (visible t) = [t!"goodmove"] := by
  refine ⟨_, document_shown env _ ?_, by decide, by decide⟩
  intro b hb
  simp only [List.mem_cons, List.not_mem_nil, or_false] at hb
  subst hb
  refine ⟨by simp, ?_⟩
  simp [Part.Fit, Ordinary, Fit, Piece.text, Document.write, Piece.write]
  decide

/-- False where the type changes within a word: the word falls apart. -/
theorem C93_false_stretch (env : Env) :
    ∃ t, format env (text [.text [.line [.plain t!"mo", .styled .italic t!"ve"]]]) = .ok t ∧
      wordsOf (unmarked [[.plain t!"mo", .styled .italic t!"ve"]]) = [t!"move"] ∧ wordsOf (visible t) = [t!"mo", t!"ve"] := by
  refine ⟨_, document_shown env _ ?_, by decide, by decide⟩
  intro b hb
  simp only [List.mem_cons, List.not_mem_nil, or_false] at hb
  subst hb
  refine ⟨by simp, ?_⟩
  simp [Part.Fit, Ordinary, Fit, Piece.text, Piece.isPlain, Document.write, Piece.write]
  decide

/-! ### C94: the depth of an item is its indentation -/

/-- If the first item is indented by one space and none by more than one more than the item before it, each item
is in as many lists as it is indented by spaces.  Missing: larger steps (C94_false_step). -/
theorem C94_depth_partial (env : Env) (x : Nat × Line) (xs : List (Nat × Line)) (hx : x.1 = 1) (h1 : ∀ y ∈ xs, 1 ≤ y.1)
    (hs : Steps ((x :: xs).map (·.1))) (hf : ∀ y ∈ x :: xs, Fit y.2) :
    ∃ t, format env (starred (x :: xs)) = .ok t ∧ depths t = (x :: xs).map (·.1) := by
  obtain ⟨it, a1, a2, a3, a4, a5⟩ := starred_tree _ (x :: xs) 1 (Nat.le_refl _)
    (by intro y hy
        rcases List.mem_cons.1 hy with rfl | hy
        · omega
        · exact h1 y hy)
    (by intro y hy; cases hy; exact hx) hs hf
  refine ⟨html [.items it], ?_, ?_⟩
  · have e : starred (x :: xs) = text [.items it] := by
      rw [text]
      simp only [List.flatMap_cons, List.flatMap_nil, List.append_nil, Block.write, a5, List.flatMap_append, List.flatMap_map,
        starred, List.nil_append]
    rw [e]
    refine document_shown env _ ?_
    intro b hb
    simp only [List.mem_cons, List.not_mem_nil, or_false] at hb
    subst hb
    exact ⟨a3 (by simp), by rw [a2]; exact a1⟩
  · have hn := a3 (by simp)
    cases it with
    | none => exact absurd rfl hn
    | item m l ls below next =>
      have e : html [.items (.item m l ls below next)] =
          .opening t!"div" :: .opening m.tag :: ((Items.item m l ls below next).html ++ [.closing m.tag, .closing t!"div"]) := by
        simp [html, Block.html, element, Items.list]
      have h3 : isList m.tag = true := by cases m <;> rfl
      have h4 : isList t!"div" = false := by decide
      rw [e, depths, depthsFrom, h4, if_neg (by simp), if_neg (by decide), depthsFrom, h3, if_pos rfl, depths_items, a4, depthsFrom, h3, if_pos rfl,
        depthsFrom, h4, if_neg (by simp), depthsFrom, List.append_nil]

/-- Non-vacuity: four items. -/
example : Steps ([(1, [.plain t!"a"]), (2, [.plain t!"b"]), (3, [.plain t!"c"]), (1, [.plain t!"d"])].map (·.1 : Nat × Line → Nat)) := by
  simp [Steps]

/-- False for larger steps: behind an item that is two spaces further to the right, an item between the two is in the
outer list. -/
theorem C94_false_step :
    ∃ t, format {} (starred [(1, [.plain t!"a"]), (3, [.plain t!"b"]), (2, [.plain t!"c"])]) = .ok t ∧ depths t ≠ [1, 3, 2] ∧ depths t = [1, 3, 1] := by
  cases h : format {} (starred [(1, [.plain t!"a"]), (3, [.plain t!"b"]), (2, [.plain t!"c"])]) with
  | error e =>
    have : (format {} (starred [(1, [.plain t!"a"]), (3, [.plain t!"b"]), (2, [.plain t!"c"])])).map depths = .ok [1, 3, 1] := by decide +kernel
    rw [h] at this
    cases this
  | ok t =>
    have : (format {} (starred [(1, [.plain t!"a"]), (3, [.plain t!"b"]), (2, [.plain t!"c"])])).map depths = .ok [1, 3, 1] := by decide +kernel
    rw [h] at this
    have e : depths t = [1, 3, 1] := Except.ok.inj this
    exact ⟨t, rfl, by rw [e]; decide, e⟩

/-- How deep items are whatever numbers of spaces they are indented by. -/
theorem C94_exact (env : Env) (xs : List (Nat × Line)) (hne : xs ≠ []) (hx : ∀ x ∈ xs, 1 ≤ x.1 ∧ Fit x.2) :
    ∃ t, format env (starred xs) = .ok t ∧ depths t = nested [] (xs.map (·.1)) := st_ladder xs hne hx

/-- Non-vacuity: items that jump. -/
example : nested [] [1, 3, 2, 2, 5, 4, 1, 2] = [1, 3, 1, 2, 5, 2, 1, 2] := by decide

/-- No item is deeper than it is indented. -/
theorem C94_bound (env : Env) (xs : List (Nat × Line)) (hne : xs ≠ []) (hx : ∀ x ∈ xs, 1 ≤ x.1 ∧ Fit x.2) :
    ∃ t, format env (starred xs) = .ok t ∧ (depths t).length = xs.length ∧ ∀ p ∈ (depths t).zip (xs.map (·.1)), p.1 ≤ p.2 := by
  obtain ⟨t, h1, h2⟩ := C94_exact env xs hne hx
  obtain ⟨h3, h4⟩ := nested_le (xs.map (·.1)) []
  exact ⟨t, h1, by rw [h2, h3, List.length_map], by rw [h2]; exact h4⟩

/-- False for items that follow each other and are indented alike: the second may be inside the first. -/
theorem C94_false_alike (env : Env) : ∃ t, format env (starred [(1, [.plain t!"a"]), (3, [.plain t!"b"]), (2, [.plain t!"c"]), (2, [.plain t!"d"])]) = .ok t ∧
    depths t = [1, 3, 1, 2] :=
  C94_exact env _ (by simp) (by
    intro x hx
    simp only [List.mem_cons, List.not_mem_nil, or_false] at hx
    rcases hx with rfl | rfl | rfl | rfl <;> exact ⟨by decide, by decide, by decide⟩)

end Bglib
