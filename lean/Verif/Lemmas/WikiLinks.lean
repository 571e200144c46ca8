import Verif.Lemmas.WikiParse
/-
The links made from wiki text.
-/
namespace Bglib
open Spec Doc

/-! ### What a pattern can read -/

/-- The texts a pattern can read, wherever it stands. -/
def Re.lang : Re → Text → Prop
  | .eps, s | .bol, s | .eol, s => s = []
  | .set cs, s => ∃ c, cs.mem c = true ∧ s = [c]
  | .seq a b, s => ∃ x y, a.lang x ∧ b.lang y ∧ s = x ++ y
  | .alt a b, s => a.lang s ∨ b.lang s
  | .rep a min max, s => ∃ l : List Text, min ≤ l.length ∧ (∀ n, max = some n → l.length ≤ n) ∧
      (∀ x ∈ l, a.lang x) ∧ s = l.flatten
  | .group _ a, s => a.lang s

theorem repAll_lang {f : Place → List Place} {L : Text → Prop}
    (hf : ∀ p q, q ∈ f p → ∃ s, p.rest = s ++ q.rest ∧ L s) (n min : Nat) (p q : Place) (h : q ∈ repAll f n min p) :
    ∃ l : List Text, min ≤ l.length ∧ l.length ≤ n ∧ (∀ x ∈ l, L x) ∧ p.rest = l.flatten ++ q.rest := by
  induction n generalizing min p with
  | zero =>
    unfold repAll at h
    split at h
    · next hm => cases List.mem_singleton.1 h; exact ⟨[], by simp [hm], by simp, by simp, rfl⟩
    · simp at h
  | succ n ih =>
    unfold repAll at h
    rcases List.mem_append.1 h with h | h
    · obtain ⟨r, hr, hq⟩ := List.mem_flatMap.1 h
      obtain ⟨s, h1, h2⟩ := hf _ _ (List.mem_filter.1 hr).1
      obtain ⟨l, k1, k2, k3, k4⟩ := ih _ r hq
      refine ⟨s :: l, by simp; omega, by simp; omega, ?_, by rw [h1, k4]; simp⟩
      intro x hx
      rcases List.mem_cons.1 hx with rfl | hx
      · exact h2
      · exact k3 x hx
    · split at h
      · next hm => cases List.mem_singleton.1 h; exact ⟨[], by simp [hm], by simp, by simp, rfl⟩
      · simp at h

theorem all_lang (r : Re) (p q : Place) (h : q ∈ r.all p) : ∃ s, p.rest = s ++ q.rest ∧ r.lang s := by
  induction r generalizing p q with
  | eps => cases List.mem_singleton.1 h; exact ⟨[], rfl, rfl⟩
  | set s => obtain ⟨c, h1, h2, _⟩ := mem_set h; exact ⟨[c], h2, c, h1, rfl⟩
  | bol => obtain ⟨_, rfl⟩ := mem_bol h; exact ⟨[], rfl, rfl⟩
  | eol =>
    unfold Re.all at h
    split at h
    · cases List.mem_singleton.1 h; exact ⟨[], rfl, rfl⟩
    · simp at h
  | seq a b iha ihb =>
    obtain ⟨r, h1, h2⟩ := mem_seq h
    obtain ⟨x, k1, k2⟩ := iha _ _ h1
    obtain ⟨y, k3, k4⟩ := ihb _ _ h2
    exact ⟨x ++ y, by rw [k1, k3, List.append_assoc], x, y, k2, k4, rfl⟩
  | alt a b iha ihb =>
    rcases mem_alt h with h | h
    · obtain ⟨s, h1, h2⟩ := iha _ _ h; exact ⟨s, h1, Or.inl h2⟩
    · obtain ⟨s, h1, h2⟩ := ihb _ _ h; exact ⟨s, h1, Or.inr h2⟩
  | rep a min max ih =>
    obtain ⟨l, h1, h2, h3, h4⟩ := repAll_lang ih _ _ _ _ h
    exact ⟨l.flatten, h4, l, h1, fun n hn => by rw [hn] at h2; simpa using h2, h3, rfl⟩
  | group name a ih =>
    obtain ⟨r, s, h1, h2, rfl⟩ := mem_group h
    obtain ⟨t, k1, k2⟩ := ih _ _ h1
    exact ⟨t, k1, k2⟩

theorem lang_ch {c : Char} {s : Text} (h : (Re.ch c).lang s) : s = [c] := by
  obtain ⟨d, h1, rfl⟩ := h
  rw [(charSet_single c d).1 h1]

theorem lang_lit {t s : Text} (h : (Re.lit t).lang s) : s = t := by
  induction t generalizing s with
  | nil => exact h
  | cons c t ih =>
    cases t with
    | nil => exact lang_ch h
    | cons d t =>
      obtain ⟨x, y, h1, h2, rfl⟩ := h
      rw [lang_ch h1, ih h2]
      rfl

theorem lang_plus {cs : CharSet} {s : Text} (h : (Re.set cs).plus.lang s) : s ≠ [] ∧ ∀ c ∈ s, cs.mem c = true := by
  obtain ⟨l, h1, _, h3, rfl⟩ := h
  refine ⟨?_, ?_⟩
  · intro h
    cases l with
    | nil => simp at h1
    | cons x l =>
      obtain ⟨c, _, rfl⟩ := h3 x (by simp)
      simp at h
  · intro c hc
    obtain ⟨x, hx, hc⟩ := List.mem_flatten.1 hc
    obtain ⟨d, hd, rfl⟩ := h3 x hx
    rwa [List.mem_singleton.1 hc]

theorem lang_opt {a : Re} {s : Text} (h : a.opt.lang s) : s = [] ∨ a.lang s := by
  obtain ⟨l, _, h2, h3, rfl⟩ := h
  have := h2 1 rfl
  match l, this with
  | [], _ => exact Or.inl rfl
  | [x], _ => exact Or.inr (by simpa using h3 x (by simp))

theorem lang_bang {a : Re} {s : Text} (h : (Re.seq bang a).lang s) (hs : s.head? ≠ some '!') : a.lang s := by
  obtain ⟨x, y, h1, h2, rfl⟩ := h
  rcases lang_opt h1 with rfl | h1
  · exact h2
  · rw [lang_ch h1] at hs
    simp at hs

theorem number_of {d : Text} (h : (Re.any digits).plus.lang d) : Number d := by
  obtain ⟨h1, h2⟩ := lang_plus h
  refine ⟨h1, fun c hc => ?_⟩
  have := h2 c hc
  simpa [CharSet.mem, digits] using this

theorem url_of {name u : Text} (h : (urlRe name).lang u) : WebUrl u := by
  obtain ⟨x, y, h1, ⟨x2, y2, h2, ⟨x3, y3, h3, h4, rfl⟩, rfl⟩, rfl⟩ := h
  obtain ⟨k1, k2⟩ := lang_plus h4
  rw [lang_lit h1, lang_lit h3]
  rcases lang_opt h2 with rfl | h2
  · exact ⟨y3, k1, Or.inl rfl, k2⟩
  · rw [lang_ch h2]
    exact ⟨y3, k1, Or.inr rfl, k2⟩

/-- A match of a line is in the language of its pattern. -/
theorem match_lang {line : Text} {x : Pat × Text × List (Text × Text)} (M : MatchAt linePatterns line x) (n : Pat) (r : Re)
    (hx : x.1 = n) (h : (linePatterns.all fun y => y.1 ≠ n || y.2 = r) = true) : r.lang x.2.1 := by
  obtain ⟨r', h1, h2, h3, _⟩ := match_re M _ h
  simp only [hx, ne_eq, not_true_eq_false, decide_false, Bool.false_or, decide_eq_true_eq] at h1
  subst h1
  obtain ⟨s, k1, k2⟩ := all_lang _ _ _ h2
  have : s = x.2.1 := List.append_cancel_right (k1.symm.trans h3)
  rwa [← this]

/-! ### What is kept beside the document -/

variable {P : Extra → Prop}

/-- All that is kept beside the document satisfies `P`. -/
def Attrs (P : Extra → Prop) (w : Wiki) : Prop := ∀ i x, (i, x) ∈ w.side → P x

/-- If there is a result, it is one with such extras. -/
def KeepsAttrs (P : Extra → Prop) (r : Py Wiki) : Prop := ∀ w, r = .ok w → Attrs P w

theorem ka_ok {w : Wiki} (h : Attrs P w) : KeepsAttrs P (.ok w) := by
  intro w' h'
  cases h'
  exact h

theorem ka_error {e : PyErr} : KeepsAttrs P (.error e) := by
  intro w' h'
  cases h'

theorem ka_bind {a : Py Wiki} {f : Wiki → Py Wiki} (ha : KeepsAttrs P a) (hf : ∀ w, Attrs P w → KeepsAttrs P (f w)) :
    KeepsAttrs P (a >>= f) := by
  cases a with
  | error e => exact ka_error
  | ok w => exact hf w (ha w rfl)

theorem ka_side {w w' : Wiki} (h : Attrs P w) (hs : w'.side = w.side) : Attrs P w' := by
  intro i l hl
  rw [hs] at hl
  exact h i l hl

theorem ka_enter {w : Wiki} (h : Attrs P w) (k : Klass) (x : Option Extra) (hx : ∀ y, x = some y → P y) :
    KeepsAttrs P (w.enter k x) := by
  unfold Wiki.enter
  split
  · exact ka_error
  · refine ka_ok ?_
    intro i l hl
    cases x with
    | none => exact h i l hl
    | some x =>
      rcases List.mem_cons.1 hl with hl | hl
      · cases hl
        exact hx l rfl
      · exact h i l hl

theorem ka_enter' {w : Wiki} (h : Attrs P w) (k : Klass) : KeepsAttrs P (w.enter k) :=
  ka_enter h k none (by simp)

theorem ka_leave {w : Wiki} (h : Attrs P w) (ks : List Klass) : KeepsAttrs P (w.leave ks) := by
  unfold Wiki.leave
  split
  · exact ka_error
  · exact ka_ok h
  · exact ka_ok (ka_side h rfl)

theorem ka_text {w : Wiki} (h : Attrs P w) (t : Text) : KeepsAttrs P (w.text t) := by
  unfold Wiki.text
  split
  · exact ka_error
  · exact ka_ok (ka_side h rfl)

theorem ka_run {w : Wiki} (h : Attrs P w) (os : List Op) : KeepsAttrs P (w.run os) := by
  unfold Wiki.run
  split
  · exact ka_error
  · exact ka_ok (ka_side h rfl)

theorem ka_startIfNone {w : Wiki} (h : Attrs P w) (k : Klass) : KeepsAttrs P (w.startIfNone k) := by
  unfold Wiki.startIfNone
  cases w.ancestor [k] with
  | error e => exact ka_error
  | ok o =>
    cases o with
    | none => exact ka_enter' h k
    | some i => exact ka_ok h

theorem ka_startOrEnd {w : Wiki} (h : Attrs P w) (k : Klass) : KeepsAttrs P (w.startOrEnd k) := by
  unfold Wiki.startOrEnd
  cases w.ancestor [k] with
  | error e => exact ka_error
  | ok o =>
    cases o with
    | none => exact ka_enter' h k
    | some i => exact ka_leave h _

theorem ka_times {f : Wiki → Py Wiki} (hf : ∀ w, Attrs P w → KeepsAttrs P (f w)) (n : Nat) {w : Wiki} (h : Attrs P w) :
    KeepsAttrs P (times f n w) := by
  induction n generalizing w with
  | zero => exact ka_ok h
  | succ n ih => exact ka_bind (hf w h) fun w hw => ih hw

theorem ka_dispatch {w : Wiki} (h : Attrs P w) (hT : P .toc) (env : Env) (name : Text) (args : Option Text) :
    KeepsAttrs P (w.dispatch env name args) := by
  unfold Wiki.dispatch
  repeat' split
  all_goals first
    | exact ka_run h _
    | exact ka_error
    | skip
  refine ka_ok ?_
  intro i l hl
  rcases List.mem_cons.1 hl with hl | hl
  · cases hl
    exact hT
  · exact h i l hl

theorem ka_link {w : Wiki} (h : Attrs P w) (l : List (Text × Text)) (t : Text) (hl : P (.attrs l)) : KeepsAttrs P (w.link l t) :=
  ka_bind (ka_enter h _ _ (by rintro l' h; cases h; exact hl)) fun _ h => ka_bind (ka_text h _) fun _ h => ka_leave h _

theorem ka_extLink {w : Wiki} (h : Attrs P w) (l : List (Text × Text)) (t : Text) (hl : P (.attrs l)) :
    KeepsAttrs P (w.extLink l t) :=
  ka_bind (ka_enter h _ _ (by rintro l' h; cases h; exact hl)) fun _ h => ka_bind (ka_enter' h _) fun _ h =>
    ka_bind (ka_text h _) fun _ h => ka_bind (ka_leave h _) fun _ h => ka_leave h _

theorem ka_itemize {w : Wiki} (h : Attrs P w) (hI : ∀ b, P (.item b)) (m : Text) (g : List (Text × Text)) : KeepsAttrs P (w.itemize m g) := by
  unfold Wiki.itemize
  dsimp only
  cases w.nesting (.list none) with
  | error e => exact ka_error
  | ok n =>
    refine ka_bind (ka_times (fun w h => ka_leave h _) _ h) fun w h => ka_bind ?_ fun w h => ?_
    · unfold Wiki.toList
      split
      · exact ka_leave h _
      · exact ka_bind (ka_times (fun w h => ka_enter' h _) _ h) fun w h => ka_enter' h _
    · unfold Wiki.enterItem
      split
      · exact ka_enter h _ _ (by rintro _ ⟨⟩; exact hI _)
      · exact ka_error

theorem ka_cite {w : Wiki} (h : Attrs P w) (m : Text) : KeepsAttrs P (w.cite m) := by
  unfold Wiki.cite
  dsimp only
  cases w.nesting .citation with
  | error e => exact ka_error
  | ok n =>
    exact ka_bind (ka_times (fun w h => ka_leave h _) _ h) fun w h =>
      ka_bind (ka_times (fun w h => ka_enter' h _) _ h) fun w h => ka_startIfNone h _

theorem ka_quote {w : Wiki} (h : Attrs P w) : KeepsAttrs P w.quote := by
  unfold Wiki.quote
  cases w.ancestor [.definitionList] with
  | error e => exact ka_error
  | ok o =>
    cases o with
    | none => exact ka_startIfNone h _
    | some i =>
      show KeepsAttrs P (w.ancestor [.definitionBody] >>= _)
      cases w.ancestor [.definitionBody] with
      | error e => exact ka_error
      | ok o =>
        cases o with
        | none => exact ka_enter' h _
        | some j => exact ka_ok (ka_side h rfl)

theorem ka_boldItalic {w : Wiki} (h : Attrs P w) : KeepsAttrs P w.boldItalic := by
  unfold Wiki.boldItalic
  cases w.ancestor [.bold, .italic] with
  | error e => exact ka_error
  | ok o =>
    cases o with
    | none => exact ka_bind (ka_enter' h _) fun w h => ka_enter' h _
    | some i => exact ka_bind (ka_leave h _) fun w h => ka_leave h _

theorem ka_tableCell {w : Wiki} (h : Attrs P w) : KeepsAttrs P w.tableCell :=
  ka_bind (ka_startIfNone h _) fun _ h => ka_bind (ka_startIfNone h _) fun _ h => ka_bind (ka_leave h _) fun _ h =>
    ka_enter' h _

/-! ### The links -/

/-- The attributes of a link. -/
def IsLink (wikipath text : Text) (l : List (Text × Text)) : Prop :=
  ∃ c t a, l = [(t!"class", c), (t!"title", t), (t!"href", if c = t!"ext-link" then escape a else a)] ∧
    LinkTo wikipath text c a

theorem contains_mid {text a b c : Text} (h : Contains text (a ++ b ++ c)) : Contains text b := by
  obtain ⟨x, y, rfl⟩ := h
  exact ⟨x ++ a, c ++ y, by simp⟩

theorem entry_link {wp text line : Text} (hl : Contains text line) {x : Pat × Text × List (Text × Text)}
    (M : MatchAt linePatterns line x) (h : x.1 = .entryLink) (hb : x.2.1.head? ≠ some '!') :
    IsLink wp text (entryAttrs x.2.1) := by
  have hc : Contains text x.2.1 := contains_trans hl (match_contains M)
  obtain ⟨s, d, h1, h2, he⟩ := lang_bang (match_lang M _ (.seq bang (.seq (.alt (.ch '#') (.lit t!"entry:")) (.plus (.any digits))))
    h (by decide)) hb
  have hd := number_of h2
  rw [he] at hc ⊢
  rcases h1 with h1 | h1
  · rw [lang_ch h1] at hc ⊢
    exact ⟨_, _, _, rfl, .entry d hd (Or.inl hc)⟩
  · rw [lang_lit h1] at hc ⊢
    exact ⟨_, _, _, rfl, .entry d hd (Or.inr hc)⟩

theorem inner_eq (a : Char) (b : Char) (d : Text) : inner ([a] ++ (d ++ [b])) 1 = d := by
  simp [inner]

theorem query_link {wp text line : Text} (hl : Contains text line) {x : Pat × Text × List (Text × Text)}
    (M : MatchAt linePatterns line x) (h : x.1 = .queryLink) (hb : x.2.1.head? ≠ some '!') :
    IsLink wp text (queryAttrs x.2.1) := by
  have hc : Contains text x.2.1 := contains_trans hl (match_contains M)
  rcases lang_bang (match_lang M _ (.seq bang (.alt (.seq (.lit t!"query:") (.plus (.any digits)))
    (.all' [.ch '{', .plus (.any digits), .ch '}']))) h (by decide)) hb with ⟨s, d, h1, h2, he⟩ | ⟨s, d', h1, ⟨d, e, h2, h3, rfl⟩, he⟩
  · rw [he] at hc ⊢
    rw [lang_lit h1] at hc ⊢
    exact ⟨_, _, _, rfl, .query d (number_of h2) (Or.inr hc)⟩
  · rw [he] at hc ⊢
    rw [lang_ch h1, lang_ch h3] at hc ⊢
    refine ⟨t!"query", [ '{' ] ++ (d ++ ['}']), t!"/query/" ++ d, ?_, .query d (number_of h2) (Or.inl (by simpa using hc))⟩
    unfold queryAttrs
    rw [inner_eq]
    rfl

theorem match_link {wp text line : Text} (hl : Contains text line) {x : Pat × Text × List (Text × Text)}
    (M : MatchAt linePatterns line x) (h : x.1 = .matchLink) (hb : x.2.1.head? ≠ some '!') :
    IsLink wp text (matchAttrs x.2.1) := by
  have hc : Contains text x.2.1 := contains_trans hl (match_contains M)
  rcases lang_bang (match_lang M _ (.seq bang (.alts [.seq (.ch 'm') (.plus (.any digits)), .seq (.lit t!"match:") (.plus (.any digits)),
    .all' [.ch '[', .plus (.any digits), .ch ']']])) h (by decide)) hb with
    ⟨s, d, h1, h2, he⟩ | ⟨s, d, h1, h2, he⟩ | ⟨s, d', h1, ⟨d, e, h2, h3, rfl⟩, he⟩
  · rw [he] at hc ⊢
    rw [lang_ch h1] at hc ⊢
    have hd := number_of h2
    refine ⟨t!"match", t!"title", t!"/match/" ++ d, ?_, .match d hd (Or.inr (Or.inr hc))⟩
    unfold matchAttrs
    rw [if_neg (by simp), if_neg]
    · rfl
    · intro ht
      obtain ⟨c, d', rfl⟩ : ∃ c d', d = c :: d' := by
        cases d with
        | nil => exact absurd rfl hd.1
        | cons c d' => exact ⟨c, d', rfl⟩
      simp only [List.cons_append, List.nil_append, List.take_succ_cons, List.cons.injEq] at ht
      have := hd.2 c (by simp)
      rw [ht.2.1] at this
      exact absurd this (by decide)
  · rw [he] at hc ⊢
    rw [lang_lit h1] at hc ⊢
    exact ⟨t!"match", t!"title", t!"/match/" ++ d, rfl, .match d (number_of h2) (Or.inr (Or.inl hc))⟩
  · rw [he] at hc ⊢
    rw [lang_ch h1, lang_ch h3] at hc ⊢
    refine ⟨t!"match", t!"title", t!"/match/" ++ d, ?_, .match d (number_of h2) (Or.inl (by simpa using hc))⟩
    unfold matchAttrs
    rw [inner_eq]
    rfl

theorem hump_alnum {s : Text} (h : hump.lang s) : Alnum s := by
  obtain ⟨x, y, ⟨c, h1, rfl⟩, h2, rfl⟩ := h
  refine ⟨by simp, ?_⟩
  intro d hd
  rcases List.mem_cons.1 hd with rfl | hd
  · have : 'A' ≤ d ∧ d ≤ 'Z' := by simpa [CharSet.mem] using h1
    exact Or.inr (Or.inl this)
  · have := (lang_plus h2).2 d hd
    have : ('a' ≤ d ∧ d ≤ 'z') ∨ '0' ≤ d ∧ d ≤ '9' := by simpa [CharSet.mem] using this
    exact this.elim Or.inl fun h => Or.inr (Or.inr h)

theorem camel_link {wp text line : Text} (hl : Contains text line) {x : Pat × Text × List (Text × Text)}
    (M : MatchAt linePatterns line x) (h : x.1 = .camelcase) (hb : x.2.1.head? ≠ some '!') :
    IsLink wp text [(t!"class", t!"wiki-link"), (t!"title", x.2.1), (t!"href", wp ++ x.2.1)] := by
  have hc : Contains text x.2.1 := contains_trans hl (match_contains M)
  obtain ⟨s, y, h1, ⟨l, _, _, h3, rfl⟩, he⟩ := lang_bang (match_lang M _ (.seq bang (.seq hump (.plus hump))) h (by decide)) hb
  refine ⟨_, _, _, rfl, .wiki x.2.1 ?_ hc⟩
  obtain ⟨h4, h5⟩ := hump_alnum h1
  rw [he]
  refine ⟨by simp [h4], ?_⟩
  intro c hc
  rcases List.mem_append.1 hc with hc | hc
  · exact h5 c hc
  · obtain ⟨z, hz, hc⟩ := List.mem_flatten.1 hc
    exact (hump_alnum (h3 z hz)).2 c hc

theorem wikiname_link {wp text line : Text} (hl : Contains text line) {x : Pat × Text × List (Text × Text)}
    (M : MatchAt linePatterns line x) (h : x.1 = .schemeWikiname) (hb : x.2.1.head? ≠ some '!') :
    IsLink wp text [(t!"class", t!"wiki-link"), (t!"title", inner x.2.1 6), (t!"href", wp ++ inner x.2.1 6)] := by
  have hc : Contains text x.2.1 := contains_trans hl (match_contains M)
  obtain ⟨s, y, h1, ⟨n, e, h2, h3, rfl⟩, he⟩ := lang_bang (match_lang M _ (.all' [bang, .lit t!"[wiki:",
    .plus (.any [('A', 'Z'), ('a', 'z')]), .ch ']']) h (by decide)) hb
  rw [he] at hc ⊢
  rw [lang_lit h1, lang_ch h3] at hc ⊢
  have hi : inner (t!"[wiki:" ++ (n ++ [']'])) 6 = n := by simp [inner]
  rw [hi]
  obtain ⟨k1, k2⟩ := lang_plus h2
  refine ⟨_, _, _, rfl, .wiki n ⟨k1, fun c hc => ?_⟩ (contains_mid (a := t!"[wiki:") (c := [']']) (by simpa using hc))⟩
  have : ('A' ≤ c ∧ c ≤ 'Z') ∨ 'a' ≤ c ∧ c ≤ 'z' := by simpa [CharSet.mem] using k2 c hc
  exact this.elim (fun h => Or.inr (Or.inl h)) Or.inl

theorem anchor_link {wp text line : Text} (hl : Contains text line) {x : Pat × Text × List (Text × Text)}
    (M : MatchAt linePatterns line x) (h : x.1 = .autoAnchor) (hb : x.2.1.head? ≠ some '!') :
    IsLink wp text [(t!"class", t!"ext-link"), (t!"title", t!"title"), (t!"href", escape x.2.1)] := by
  have hc : Contains text x.2.1 := contains_trans hl (match_contains M)
  exact ⟨_, _, x.2.1, rfl, .web x.2.1 (url_of (lang_bang (match_lang M _ (.seq bang (urlRe t!"url_2")) h (by decide)) hb)) hc⟩

theorem url_link {text line : Text} (hl : Contains text line) {x : Pat × Text × List (Text × Text)}
    (M : MatchAt linePatterns line x) (h : x.1 = .schemeUrl) :
    ∃ u, groupOf x.2.2 t!"url_1" = some u ∧ WebUrl u ∧ Contains text u := by
  have hc : Contains text x.2.1 := contains_trans hl (match_contains M)
  obtain ⟨r, h1, h2, h3, h4, _⟩ := match_re M (fun y => y.1 ≠ .schemeUrl || y.2 = .all' [bang, .ch '[', urlRe t!"url_1",
    .opt (.group t!"disp" (.seq (.ch ' ') (.plus (.set ⟨true, [(']', ']')]⟩)))), .ch ']']) (by decide)
  simp only [h, ne_eq, not_true_eq_false, decide_false, Bool.false_or, decide_eq_true_eq] at h1
  subst h1
  obtain ⟨p1, a1, h2⟩ := mem_seq (a := bang) h2
  obtain ⟨p2, a2, h2⟩ := mem_seq (a := .ch '[') h2
  obtain ⟨p3, a3, h2⟩ := mem_seq (a := urlRe t!"url_1") h2
  obtain ⟨p4, a4, a5⟩ := mem_seq (b := .ch ']') h2
  obtain ⟨z, u, b1, b2, hz⟩ := mem_group a3
  obtain ⟨u', c1, c2⟩ := all_lang _ _ _ b1
  have : u' = u := List.append_cancel_right (c1.symm.trans b2)
  subst this
  have hurl : WebUrl u' := url_of (name := t!"url_1") c2
  have hcont : Contains x.2.1 u' := by
    obtain ⟨s1, e1, _⟩ := all_lang _ _ _ a1
    obtain ⟨s2, e2, _⟩ := all_lang _ _ _ a2
    obtain ⟨s4, e4, _⟩ := all_lang _ _ _ a4
    obtain ⟨s5, e5, _⟩ := all_lang _ _ _ a5
    have hzr : z.rest = p3.rest := by rw [hz]
    refine ⟨s1 ++ s2, s4 ++ s5, List.append_cancel_right (bs := M.q.rest) ?_⟩
    rw [← h3, e1, e2, b2, hzr, e4, e5]
    simp
  refine ⟨u', ?_, hurl, contains_trans hc hcont⟩
  obtain ⟨_, g5⟩ := mem_ch a5
  rw [h4, g5]
  have hg3 : ∃ g, p3.groups = (t!"url_1", u') :: g := ⟨z.groups, by rw [hz]⟩
  obtain ⟨g, hg3⟩ := hg3
  rcases mem_opt a4 with rfl | a4
  · rw [hg3]; simp [groupOf]
  · obtain ⟨g', k1, k2⟩ := all_names _ _ _ a4
    rw [k1, hg3]
    unfold groupOf
    rw [List.find?_append, List.find?_eq_none.2]
    · simp
    · intro y hy hy'
      have := k2 y hy
      rw [(by simpa using hy' : y.1 = t!"url_1")] at this
      exact absurd this (by decide)

/-- `P` holds for all that is kept when formatting `text`. -/
structure Takes (env : Env) (text : Text) (P : Extra → Prop) : Prop where
  toc : P .toc
  item : ∀ b, P (.item b)
  link : ∀ l, IsLink env.wikipath text l → P (.attrs l)
  block : Contains text t!"{{{" → P (.block [] false)
  more : ∀ b r b' r', P (.block b r) → P (.block b' r')

theorem start_match {line : Text} {x : Pat × Text × List (Text × Text)} (M : MatchAt linePatterns line x)
    (h : x.1 = .preformatStart) : Contains x.2.1 t!"{{{" := by
  obtain ⟨s, y, _, ⟨u, v, h2, ⟨z, z', h3, h4, rfl⟩, rfl⟩, he⟩ := match_lang M _ (.all' [bang, .bol, .lit t!"{{{", .eol]) h (by decide)
  rw [he, lang_lit h3]
  exact ⟨s ++ u, z', by simp⟩

theorem ka_handle {env : Env} {text line : Text} (hP : Takes env text P) (hl : Contains text line) {w : Wiki}
    (hw : Attrs P w) {x : Pat × Text × List (Text × Text)} (M : MatchAt linePatterns line x)
    (hb : x.2.1.head? ≠ some '!') : KeepsAttrs P (w.handle env x.1 x.2.1 x.2.2) := by
  unfold Wiki.handle
  split
  case h_1 | h_2 => exact ka_text hw _
  all_goals first
    | exact ka_startOrEnd hw _
    | exact ka_enter' hw _
    | exact ka_leave hw _
    | exact ka_boldItalic hw
    | exact ka_tableCell hw
    | exact ka_enter hw _ _ (by rintro _ ⟨⟩; exact hP.block (contains_trans (contains_trans hl (match_contains M))
        (start_match M (by assumption))))
    | exact ka_ok hw
    | exact ka_cite hw _
    | exact ka_itemize hw hP.item _ _
    | exact ka_quote hw
    | exact ka_dispatch hw hP.toc _ _ _
    | exact ka_link hw _ _ (hP.link _ (entry_link hl M (by assumption) hb))
    | exact ka_link hw _ _ (hP.link _ (query_link hl M (by assumption) hb))
    | exact ka_link hw _ _ (hP.link _ (match_link hl M (by assumption) hb))
    | exact ka_link hw _ _ (hP.link _ (camel_link hl M (by assumption) hb))
    | exact ka_link hw _ _ (hP.link _ (wikiname_link hl M (by assumption) hb))
    | exact ka_extLink hw _ _ (hP.link _ (anchor_link hl M (by assumption) hb))
    | skip
  next h =>
    obtain ⟨u, h1, h2, h3⟩ := url_link hl M h
    unfold Wiki.schemeUrl
    rw [h1]
    exact ka_extLink hw _ _ (hP.link _ ⟨_, _, u, rfl, .web u h2 h3⟩)

theorem ka_items {env : Env} {text line : Text} (hP : Takes env text P) (hl : Contains text line) (xs : List (Pat × Text × List (Text × Text)))
    (hxs : ∀ x ∈ xs, Nonempty (MatchAt linePatterns line x)) {w : Wiki} (hw : Attrs P w) :
    KeepsAttrs P (w.items env xs) := by
  induction xs generalizing w with
  | nil => exact ka_ok hw
  | cons x xs ih =>
    refine ka_bind ?_ fun w hw => ih (fun y hy => hxs y (by simp [hy])) hw
    obtain ⟨M⟩ := hxs x (by simp)
    unfold Wiki.item
    split
    · exact ka_text hw _
    · next h =>
      by_cases hr : x.1 = .rest
      · rw [hr]; exact ka_text hw _
      · exact ka_handle hP hl hw M fun hb => h ⟨hb, hr⟩

theorem ka_onlyIf {w : Wiki} (h : Attrs P w) (b : Bool) (f : Wiki → Py Wiki) (hf : ∀ w, Attrs P w → KeepsAttrs P (f w)) :
    KeepsAttrs P (w.onlyIf b f) := by
  unfold Wiki.onlyIf
  split
  · exact hf w h
  · exact ka_ok h

theorem ka_line {env : Env} {text line : Text} (hP : Takes env text P) (hl : Contains text line) {w : Wiki} (hw : Attrs P w) :
    KeepsAttrs P (w.line env line) := by
  unfold Wiki.line
  split
  · next c buf rst hb =>
    have hold : P (.block buf rst) := by
      unfold Wiki.block at hb
      split at hb
      · cases hb
      · next c' _ =>
        split at hb
        · next hx =>
          cases hb
          unfold Wiki.extra at hx
          obtain ⟨y, h1, h2⟩ := Option.map_eq_some_iff.1 hx
          have := hw y.1 y.2 (List.mem_of_find?_eq_some h1)
          rwa [h2] at this
        · cases hb
    have hblock : ∀ c buf' rst', Attrs P { w with side := (c, .block buf' rst') :: w.side } := by
      intro c buf' rst' i l hl
      rcases List.mem_cons.1 hl with hl | hl
      · cases hl
        exact hP.more _ _ _ _ hold
      · exact hw i l hl
    unfold Wiki.parseBlock
    split
    · exact ka_leave hw _
    · split
      · exact ka_ok (hblock _ _ _)
      · exact ka_ok (hblock _ _ _)
  · unfold Wiki.parseLine
    split
    · exact ka_bind (ka_leave hw _) fun w hw => ka_ok (ka_side hw rfl)
    · exact ka_bind (ka_startIfNone hw _) fun w hw =>
        ka_bind (ka_onlyIf hw _ _ fun w hw => ka_leave hw _) fun w hw =>
        ka_bind (ka_onlyIf hw _ _ fun w hw => ka_leave hw _) fun w hw =>
        ka_bind (ka_onlyIf hw _ _ fun w hw => ka_bind (ka_startIfNone hw _) fun w hw => ka_enter' hw _) fun w hw =>
        ka_bind (ka_items hP hl _ (fun x hx => finditer_mem _ _ x hx) hw) fun w hw =>
        ka_onlyIf hw _ _ fun w hw => ka_bind (ka_leave hw _) fun w hw => ka_enter' hw _

theorem ka_lines {env : Env} {text : Text} (hP : Takes env text P) (ls : List Text) (hls : ∀ l ∈ ls, Contains text l) {w : Wiki}
    (hw : Attrs P w) : KeepsAttrs P (w.lines env ls) := by
  induction ls generalizing w with
  | nil => exact ka_ok hw
  | cons l ls ih =>
    exact ka_bind (ka_line hP (hls l (by simp)) hw) fun w hw => ih (fun l hl => hls l (by simp [hl])) hw

theorem ka_parse {env : Env} {text : Text} (hP : Takes env text P) : KeepsAttrs P (Wiki.start.parse env text) := by
  refine ka_lines hP _ (fun l hl => ?_) (by intro i l hl; simp [Wiki.start] at hl)
  obtain ⟨a, b, h, _⟩ := split_lines [] text l hl
  exact ⟨a, b, by simpa using h⟩

theorem parse_links (env : Env) (text : Text) (w : Wiki) (h : Wiki.start.parse env text = .ok w) (i : Nat)
    (l : List (Text × Text)) (hl : (i, .attrs l) ∈ w.side) : IsLink env.wikipath text l :=
  ka_parse (P := fun x => ∀ l, x = .attrs l → IsLink env.wikipath text l)
    ⟨by simp, by simp, by rintro l h _ ⟨⟩; exact h, by simp, by simp⟩ w h i _ hl l rfl

/-- Without braces there are no blocks. -/
theorem parse_noBlock (env : Env) (text : Text) (ht : ¬ Contains text t!"{{{") (w : Wiki)
    (h : Wiki.start.parse env text = .ok w) (i : Nat) (buf : Text) (rst : Bool) : (i, .block buf rst) ∉ w.side :=
  fun hb => ka_parse (P := fun x => ∀ b r, x ≠ .block b r)
    ⟨by simp, by simp, by simp, fun h => absurd h ht, fun b r _ _ h => absurd rfl (h b r)⟩ w h i _ hb buf rst rfl

end Bglib
