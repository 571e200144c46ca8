import Verif.Lemmas.Doctree
/-
Documents and HTML: C35, C36, C59, C60.
-/
namespace Bglib
open Spec Doc

/-! ### C35: documents are trees and their HTML is balanced -/

/-- Whatever is done with the editor, the document stays a tree. -/
theorem C35_tree (os : List Op) (e : Editor) (h : Editor.start.run os = .ok e) : IsTree e :=
  inv_tree e (run_inv os _ _ start_inv h)

/-- Each node is accepted by its container; text is always accepted. -/
theorem C35_accepted (os : List Op) (e : Editor) (h : Editor.start.run os = .ok e) (i j : Nat) (n m : Node)
    (hn : e.nodes[i]? = some n) (hm : e.nodes[j]? = some m) (hj : j ∈ n.children) :
    m.klass = .text ∨ n.klass.accepts m.klass = true :=
  (run_inv os _ _ start_inv h).accepted i j n m hn hm hj

/-- The HTML is written, with all tags closed in the right order, unless a list without the attributes of
its design was made: then it is a KeyError. -/
theorem C35_balanced (os : List Op) (e : Editor) (h : Editor.start.run os = .ok e) :
    (∃ b, e.html = .ok b ∧ Balanced b) ∨
    (e.html = .error .keyError ∧ ∃ n ∈ e.nodes, n.klass = .list none) := by
  have hi := run_inv os _ _ start_inv h
  obtain ⟨r, hr, _⟩ := hi.root
  rcases accept_ok e hi (e.nodes.length + 1) 0 (List.getElem?_eq_some_iff.1 hr).1 (by omega) with h | ⟨b, h1, h2, _⟩
  · exact Or.inr h
  · exact Or.inl ⟨b, h1, h2⟩

/-- The editor works as long as the root is not left and nothing is removed. -/
theorem C35_works (os : List Op) (h : ∀ o ∈ os, Keeps o) : ∃ e, Editor.start.run os = .ok e := by
  have hstep : ∀ (e : Editor) (o : Op), DInv e → e.current ≠ none → Keeps o →
      ∃ e', e.apply o = .ok e' ∧ e'.current ≠ none := by
    intro e o hi hc hk
    obtain ⟨c, hc⟩ := Option.ne_none_iff_exists'.1 hc
    have hcl := hi.current c hc
    cases o with
    | enter k =>
      obtain ⟨c', n, _, _, _, h4⟩ := append_spec e hi k hk c hc
      simp only [Editor.apply, Editor.enter, h4]
      exact ⟨_, rfl, by simp⟩
    | append k =>
      obtain ⟨c', n, _, _, _, h4⟩ := append_spec e hi k hk c hc
      simp only [Editor.apply, h4]
      exact ⟨_, rfl, by simp⟩
    | leave k =>
      simp only [Editor.apply, Editor.leave]
      rcases climb_spec e hi (fun n => n.klass.isA k) (e.nodes.length + 1) e.current
        (fun c hc => by have := hi.current c hc; omega) with h | ⟨i, n, h1, h2, h3, _⟩
      · rw [h]; exact ⟨_, rfl, by rw [hc]; simp⟩
      · rw [h1]
        refine ⟨_, rfl, ?_⟩
        simp only [Editor.parentOf, h2, Option.bind_some]
        by_cases h0 : i = 0
        · subst h0
          obtain ⟨m, hm, hmr, _⟩ := hi.root
          rw [h2] at hm
          cases hm
          rw [hmr] at h3
          exact absurd (h3.symm.trans hk) (by decide)
        · obtain ⟨p, hp, _⟩ := hi.parents i n h2 h0
          rw [hp]; simp
    | text t =>
      simp only [Editor.apply, Editor.appendText]
      rw [hc, Option.bind_some, List.getElem?_eq_getElem hcl]
      simp only [Option.map_some]
      split
      · split
        · exact ⟨_, rfl, by simp⟩
        · exact ⟨_, rfl, by simp⟩
      · exact ⟨_, rfl, by simp⟩
    | remove i => exact hk.elim
    | done => exact ⟨_, rfl, by simp [Editor.done]⟩
  have : ∀ (os : List Op) (e : Editor), DInv e → e.current ≠ none → (∀ o ∈ os, Keeps o) →
      ∃ e', e.run os = .ok e' := by
    intro os
    induction os with
    | nil => intro e _ _ _; exact ⟨e, rfl⟩
    | cons o os ih =>
      intro e hi hc hk
      obtain ⟨e1, h1, h2⟩ := hstep e o hi hc (hk o (by simp))
      obtain ⟨e2, h3⟩ := ih e1 (apply_inv e e1 hi o h1) h2 (fun o ho => hk o (by simp [ho]))
      exact ⟨e2, by simp only [Editor.run, h1, h3]⟩
  exact this os _ start_inv (by decide) h

/-- A list with an item with bold text. -/
def sampleOps : List Op :=
  [.enter (.list (some .star)), .enter .itemize, .text t!"a", .enter .bold, .text t!"b", .leave .bold,
   .text t!"c", .leave (.list none), .text t!"d"]

/-- Non-vacuity: the HTML of that. -/
example : (Editor.start.run sampleOps).toOption.map (·.html) = some (.ok
    [.opening t!"ul", .opening t!"li", .text t!"a", .text t!"\n", .opening t!"strong", .text t!"b", .text t!"\n",
     .closing t!"strong", .text t!"c", .text t!"\n", .closing t!"li", .closing t!"ul", .text t!"d", .text t!"\n"]) := by
  decide

example : ∀ o ∈ sampleOps, Keeps o := by
  intro o ho
  simp only [sampleOps, List.mem_cons, List.not_mem_nil, or_false] at ho
  rcases ho with rfl | rfl | rfl | rfl | rfl | rfl | rfl | rfl | rfl <;> simp [Keeps] <;> decide

/-- The other possibilities: a list without design; an editor that left the root. -/
example : (Editor.start.run [.enter (.list none)]).toOption.map (·.html) = some (.error .keyError) := by decide
example : Editor.start.run [.leave .root, .text t!"x"] = .error .attributeError := by decide

/-- Not all pieces of HTML are balanced. -/
example : ¬ Balanced [.opening t!"p"] := by
  have hcount : ∀ b, Balanced b → b.countP (fun t => match t with | .opening _ => true | _ => false) =
      b.countP (fun t => match t with | .closing _ => true | _ => false) := by
    intro b h
    induction h with
    | nil => rfl
    | text => rfl
    | single => rfl
    | wrap t b _ ih => simp only [List.cons_append, List.countP_cons, List.countP_append, ih]; simp
    | append a b _ _ iha ihb => rw [List.countP_append, List.countP_append, iha, ihb]
  intro h
  exact absurd (hcount _ h) (by decide)

/-! ### C36: escaping -/

theorem unescape_escapeChar (c : Char) (r : Text) : unescape (escapeChar c ++ escape r) = c :: unescape (escape r) := by
  unfold escapeChar
  split
  · next h => subst h; rfl
  · split
    · next h => subst h; rfl
    · split
      · next h => subst h; rfl
      · next h3 =>
        show unescape (c :: escape r) = _
        rw [unescape.eq_def]
        split
        · next heq => simp at heq; exact absurd heq.1 h3
        · next heq => simp at heq; exact absurd heq.1 h3
        · next heq => simp at heq; exact absurd heq.1 h3
        · next heq => simp at heq; rw [heq.1, heq.2]
        · next heq => simp at heq

/-- Undoing the entities gives the text back: nothing is lost. -/
theorem C36_lossless (s : Text) : unescape (escape s) = s := by
  induction s with
  | nil => rfl
  | cons c s ih =>
    show unescape (escapeChar c ++ escape s) = _
    rw [unescape_escapeChar, ih]

/-- Escaped text has no angle brackets, and `&` only in entities. -/
theorem C36_safe (s : Text) : SafeText (escape s) := by
  induction s with
  | nil => exact .nil
  | cons c s ih =>
    show SafeText (escapeChar c ++ escape s)
    unfold escapeChar
    split
    · exact .lt _ ih
    · split
      · exact .gt _ ih
      · split
        · exact .amp _ ih
        · exact .plain c _ ‹_› ‹_› ‹_› ih

/-- Different texts stay different. -/
theorem C36_injective (s t : Text) (h : escape s = escape t) : s = t := by
  rw [← C36_lossless s, h, C36_lossless]

/-- Safe text has no angle bracket. -/
theorem C36_no_brackets (s : Text) : '<' ∉ escape s ∧ '>' ∉ escape s := by
  have : ∀ t, SafeText t → '<' ∉ t ∧ '>' ∉ t := by
    intro t h
    induction h with
    | nil => simp
    | lt r _ ih => exact ⟨by simp [ih.1], by simp [ih.2]⟩
    | gt r _ ih => exact ⟨by simp [ih.1], by simp [ih.2]⟩
    | amp r _ ih => exact ⟨by simp [ih.1], by simp [ih.2]⟩
    | plain c r h1 h2 _ _ ih => exact ⟨by simp [ih.1, Ne.symm h1], by simp [ih.2, Ne.symm h2]⟩
  exact this _ (C36_safe s)

/-- Non-vacuity -/
example : escape t!"a<b> &amp;?" = t!"a&lt;b&gt; &amp;amp;?" := by decide
example : ¬ SafeText t!"a&b" := by
  intro h
  generalize hs : t!"a&b" = s at h
  cases h with
  | nil => simp at hs
  | lt r _ => simp at hs
  | gt r _ => simp at hs
  | amp r _ => simp at hs
  | plain c r _ _ _ h =>
    simp only [List.cons.injEq] at hs
    obtain ⟨_, rfl⟩ := hs
    generalize hs : (['&', 'b'] : Text) = s at h
    cases h with
    | nil => simp at hs
    | lt r _ => simp at hs
    | gt r _ => simp at hs
    | amp r _ => simp at hs
    | plain c r _ _ hc h => simp only [List.cons.injEq] at hs; exact hc hs.1.symm

/-! ### C59: the text of the document is the text that was written, in its order -/

/-- What is missing: only when every new node is accepted by the current one, so that no node is left
implicitly, and without `remove` and `done`.  Then the text is that given, and the parent of each node is
its container. -/
theorem C59_partial (os : List Op) (e : Editor) (hd : AllDirect Editor.start os)
    (h : Editor.start.run os = .ok e) :
    content e = typed os ∧ ∀ (i j : Nat) (n m : Node), e.nodes[i]? = some n → e.nodes[j]? = some m →
      j ∈ n.children → m.parent = some i := by
  obtain ⟨h1, h2⟩ := run_direct os _ _ start_xinv hd h
  exact ⟨by rw [h2]; rfl, h1.parents⟩

/-- The HTML shows the text of the document, whatever was done (but for line ends). -/
theorem C59_shown (os : List Op) (e : Editor) (h : Editor.start.run os = .ok e) (b : List Tok)
    (hb : e.html = .ok b) : withoutEnds (shown b) = withoutEnds (content e) := by
  have hi := run_inv os _ _ start_inv h
  obtain ⟨r, hr, _⟩ := hi.root
  rcases accept_ok e hi (e.nodes.length + 1) 0 (List.getElem?_eq_some_iff.1 hr).1 (by omega) with ⟨h, _⟩ | ⟨b', h1, _, h3⟩
  · unfold Editor.html at hb; rw [h] at hb; simp at hb
  · unfold Editor.html at hb
    rw [h1] at hb
    cases hb
    exact h3

/-- An inner list begun within bold text in an item: what follows it is written before it. -/
def swappedOps : List Op :=
  [.enter (.list (some .star)), .enter .itemize, .enter .bold, .text t!"a", .enter (.list (some .star)),
   .enter .itemize, .text t!"b", .leave (.list none), .text t!"c"]

/-- The document made by that. -/
def swappedDoc : Editor := ⟨[⟨.root, none, [1], []⟩, ⟨.list (some .star), some 0, [2], []⟩,
    ⟨.itemize, some 1, [3, 5], []⟩, ⟨.bold, some 2, [4], []⟩, ⟨.text, some 3, [], t!"ac"⟩,
    ⟨.list (some .star), some 3, [6], []⟩, ⟨.itemize, some 5, [7], []⟩, ⟨.text, some 6, [], t!"b"⟩], some 3⟩

/-- In general the text gets out of order: the parent of a node is not its container. -/
theorem C59_false : ∃ (os : List Op) (e : Editor), Editor.start.run os = .ok e ∧ content e ≠ typed os ∧
    ∃ (i j : Nat) (n m : Node), e.nodes[i]? = some n ∧ e.nodes[j]? = some m ∧ j ∈ n.children ∧
      m.parent ≠ some i :=
  ⟨swappedOps, swappedDoc, by decide, by decide, 2, 5, ⟨.itemize, some 1, [3, 5], []⟩,
    ⟨.list (some .star), some 3, [6], []⟩, by decide, by decide, by decide, by decide⟩

/-- Deciding whether an operation is direct, for the example. -/
def stepB (e : Editor) : Op → Bool
  | .enter k | .append k => decide (k ≠ .text) &&
      ((e.current.bind fun c => e.nodes[c]?).map fun n => n.klass.accepts k).getD false
  | .leave _ | .text _ => true
  | _ => false

def directB : Editor → List Op → Bool
  | _, [] => true
  | e, o :: os => stepB e o && match e.apply o with
    | .ok e' => directB e' os
    | .error _ => true

/-- Non-vacuity of the positive statement. -/
example : (Editor.start.run sampleOps).toOption.map content = some t!"abcd" ∧ typed sampleOps = t!"abcd" := by decide

example : AllDirect Editor.start sampleOps := by
  have key : ∀ (os : List Op) (e : Editor), directB e os = true → AllDirect e os := by
    intro os
    induction os with
    | nil => intro e _; trivial
    | cons o os ih =>
      intro e h
      rw [directB, Bool.and_eq_true] at h
      refine ⟨?_, fun e' he => ih e' ?_⟩
      · cases o with
        | enter k | append k =>
          have h1 := h.1
          rw [stepB] at h1
          cases hc : e.current with
          | none => rw [hc] at h1; simp at h1
          | some c =>
            cases hn : e.nodes[c]? with
            | none => rw [hc] at h1; simp [hn] at h1
            | some n =>
              rw [hc] at h1
              simp only [Option.bind_some, hn, Option.map_some, Option.getD_some, Bool.and_eq_true,
                decide_eq_true_eq] at h1
              exact ⟨h1.1, c, n, hc, hn, h1.2⟩
        | leave | text => trivial
        | remove | done => exact absurd h.1 (by simp [stepB])
      · have h2 := h.2
        rw [he] at h2
        exact h2
  exact key _ _ (by decide)

/-! ### C60: attribute values stay within their quotes -/

/-- What is missing: values with a quotation mark. -/
theorem C60_partial (key value : Text) (h : '"' ∉ value) :
    ∃ inner, attributeText key value = key ++ '=' :: '"' :: inner ++ ['"'] ∧ '"' ∉ inner ∧ '<' ∉ inner ∧
      '>' ∉ inner ∧ unescape inner = value := by
  refine ⟨escape value, rfl, ?_, (C36_no_brackets value).1, (C36_no_brackets value).2, C36_lossless value⟩
  intro hm
  obtain ⟨c, hc, hq⟩ := List.mem_flatMap.1 hm
  unfold escapeChar at hq
  split at hq
  · simp at hq
  · split at hq
    · simp at hq
    · split at hq
      · simp at hq
      · simp only [List.mem_singleton] at hq
        subst hq
        exact h hc

/-- A quotation mark in the value ends it: the rest makes another attribute. -/
theorem C60_false : ∃ key value key' value', attributeText key value =
    attributeText key [] ++ ' ' :: attributeText key' value' :=
  ⟨t!"href", t!"\" onclick=\"f()", t!"onclick", t!"f()", by decide⟩

example : attributeText t!"href" t!"a&b" = t!"href=\"a&amp;b\"" := by decide

end Bglib
