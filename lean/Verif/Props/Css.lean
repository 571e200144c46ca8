import Verif.Lemmas.Css
/-
C64: style sheets are read as they are written.
-/
namespace Bglib
open Spec Img

/-- A line with a rule whose attributes have different names is read as that rule, whatever blanks are
between the parts. -/
theorem C64_read (css : Text) (ss : List Selector) (xs : List (Text × Text)) (line : Text) (h : RuleLine ss xs line)
    (hd : (xs.map (·.1)).Nodup) : parseRule css line = .ok (some ⟨css, ss, xs⟩) := by
  rw [parseRule_line h, dictOf_nodup hd]

/-- If a name occurs more than once the last value counts. -/
theorem C64_last (css : Text) (ss : List Selector) (xs : List (Text × Text)) (line : Text) (h : RuleLine ss xs line) :
    ∃ r, parseRule css line = .ok (some r) ∧ r.css = css ∧ r.pattern = ss ∧
      ∀ name, r.block.lookup name = xs.reverse.lookup name :=
  ⟨_, parseRule_line h, rfl, rfl, fun n => lookup_dictOf n xs⟩

/-- A style sheet gives its rules in order; lines without `{` are skipped. -/
theorem C64_sheet (css : Text) (ls : List Text) (rs : List (List Selector × List (Text × Text))) (h : Sheet ls rs) :
    loadCss css ls = .ok (rs.map fun r => ⟨css, r.1, r.2⟩) := by
  induction h with
  | nil => rfl
  | rule h hd _ ih =>
    simp only [loadCss, C64_read css _ _ _ h hd, ih, bind, Except.bind, pure, Except.pure, List.map_cons]
  | other h _ ih => simp only [loadCss, parseRule_none h, ih, bind, Except.bind, pure, Except.pure]

/-- Reading a line never fails in another way than by AssertionError, and a line that gives a rule has `{`
and `}` in this order. -/
theorem C64_total (css line : Text) :
    parseRule css line = .error .assertion ∨ parseRule css line = .ok none ∨
      ∃ r a b c, parseRule css line = .ok (some r) ∧ line = a ++ '{' :: b ++ '}' :: c := by
  by_cases hl : line = []
  · exact Or.inr (Or.inl (by rw [parseRule, if_pos hl]))
  rcases hm : search ruleRe line with _ | g
  · exact Or.inr (Or.inl (by rw [parseRule, if_neg hl, hm]))
  by_cases hp : (grp g t!"pattern").getD [] = []
  · exact Or.inl (by rw [parseRule, if_neg hl, hm]; simp only [if_pos hp])
  by_cases hb : (grp g t!"block").getD [] = []
  · exact Or.inl (by rw [parseRule, if_neg hl, hm]; simp only [if_neg hp, if_pos hb])
  refine Or.inr (Or.inr ⟨⟨css, parsePattern ((grp g t!"pattern").getD []), parseBlock ((grp g t!"block").getD [])⟩, ?_⟩)
  have hr : parseRule css line = .ok (some ⟨css, parsePattern ((grp g t!"pattern").getD []),
      parseBlock ((grp g t!"block").getD [])⟩) := by
    rw [parseRule, if_neg hl, hm]; simp only [if_neg hp, if_neg hb]
  have hbr : ∃ a b c, line = a ++ '{' :: b ++ '}' :: c := by
    have : ∀ (st : Bool) (s : Text), searchFrom ruleRe st s ≠ none → ∃ a b c, s = a ++ '{' :: b ++ '}' :: c := by
      intro st s hs
      induction s generalizing st with
      | nil => exact absurd (search_none_of [] st (by intro st t ht; simp at ht; subst ht; cases st <;> rfl)) hs
      | cons d s ih =>
        rcases he : ruleRe.all ⟨st, d :: s, []⟩ with _ | ⟨q, t⟩
        · rw [searchFrom_skip he] at hs
          obtain ⟨a, b, c, e⟩ := ih _ hs
          exact ⟨d :: a, b, c, by rw [e]; rfl⟩
        · obtain ⟨a, b, c, e, _⟩ := rule_braces (q := q) (by rw [he]; simp)
          exact ⟨a, b, c, e⟩
    apply this true
    intro hn
    rw [search, hn] at hm
    simp at hm
  obtain ⟨a, b, c, e⟩ := hbr
  exact ⟨a, b, c, hr, e⟩

/-- Not vacuous: a line of a shipped theme (`resource/deutsche/default.css:70` without the `#`). -/
theorem C64_example : RuleLine [⟨t!"field", some (t!"player", t!"you"), none⟩, ⟨t!"point", none, some t!"13"⟩]
    [(t!"x", t!"176"), (t!"background", t!"#d8c810")]
    t!"field[player=you] point:data(13) {x:  176; background:#d8c810}\n" := by
  have hsel : ∀ s : Selector, (∀ c ∈ s.element, Letter c) → s.element ≠ [] →
      (∀ n v, s.attr = some (n, v) → Word NameChar n ∧ Word NameChar v) →
      (∀ d, s.data = some d → Word (fun c => c ≠ ')' ∧ c ≠ ' ' ∧ c ≠ '{') d) → GoodSelector s :=
    fun s h1 h2 h3 h4 => ⟨⟨h2, h1⟩, h3, h4⟩
  have g1 : GoodSelector ⟨t!"field", some (t!"player", t!"you"), none⟩ := by
    refine hsel _ (by simp [Letter]) (by simp) ?_ (by simp)
    intro n v h
    simp only [Option.some.injEq, Prod.mk.injEq] at h
    obtain ⟨rfl, rfl⟩ := h
    exact ⟨⟨by simp, by simp [NameChar, Letter]⟩, ⟨by simp, by simp [NameChar, Letter]⟩⟩
  have g2 : GoodSelector ⟨t!"point", none, some t!"13"⟩ := by
    refine hsel _ (by simp [Letter]) (by simp) (by simp) ?_
    intro d h
    simp only [Option.some.injEq] at h
    subst h
    exact ⟨by simp, by simp⟩
  have a1 : GoodAttr (t!"x", t!"176") := ⟨⟨by simp, by simp [NameChar, Letter]⟩, ⟨by simp, by simp⟩⟩
  have a2 : GoodAttr (t!"background", t!"#d8c810") :=
    ⟨⟨by simp, by simp [NameChar, Letter]⟩, ⟨by simp, by simp⟩⟩
  exact RuleLine.mk 0 (Selectors.more _ 0 g1 (Selectors.one _ 1 g2))
    (Attributes.more _ 0 0 2 0 a1 (Attributes.one _ 1 0 0 0 a2)) (by simp [writeAttr]) (rest := ['\n']) (by simp)

example : parseRule t!"t" t!"field[player=you] point:data(13) {x:  176; background:#d8c810}\n" =
    .ok (some ⟨t!"t", [⟨t!"field", some (t!"player", t!"you"), none⟩, ⟨t!"point", none, some t!"13"⟩],
      [(t!"x", t!"176"), (t!"background", t!"#d8c810")]⟩) :=
  C64_read _ _ _ _ C64_example (by decide)

/-! ### Where reading differs from what is meant -/

/-- A `#` before a rule, as used in the shipped themes to leave out a rule, has no effect at all. -/
theorem C64_false_comment (css : Text) (ss : List Selector) (xs : List (Text × Text)) (line : Text)
    (h : RuleLine ss xs line) : parseRule css ('#' :: line) = parseRule css line := by
  rw [parseRule_hash h, parseRule_line h]

example : parseRule t!"t" t!"#field[player=you] point:data(13) {x:  176; background:#d8c810}\n" =
    parseRule t!"t" t!"field[player=you] point:data(13) {x:  176; background:#d8c810}\n" :=
  C64_false_comment _ _ _ _ C64_example

/-- The notation with quotes of the description (css.py:28, 37, 41) is not understood: the condition on the
attribute is dropped, so that the rule applies to the element of the description's sample to which it is
"not applied". -/
theorem C64_false_quoted :
    (∃ r, parseRule [] t!"point[x='100'] {y: 200}" = .ok (some r) ∧
      r.isMatch [⟨.point, [(t!"x", .int 200)], []⟩] = .ok true) ∧
    (∃ r, parseRule [] t!"point[x=\"100\"] {y: 200}" = .ok (some r) ∧
      r.isMatch [⟨.point, [(t!"x", .int 200)], []⟩] = .ok true) ∧
    (∃ r, parseRule [] t!"point:data('1') {y: 200}" = .ok (some r) ∧
      r.isMatch [⟨.point, [], [t!"1"]⟩] = .ok false) := by
  refine ⟨⟨⟨[], [⟨t!"point", none, none⟩], [(t!"y", t!"200")]⟩, ?_⟩,
    ⟨⟨[], [⟨t!"point", none, none⟩], [(t!"y", t!"200")]⟩, ?_⟩,
    ⟨⟨[], [⟨t!"point", none, some t!"'1'"⟩], [(t!"y", t!"200")]⟩, ?_⟩⟩ <;> decide

/-- Two rules on one line give one rule, with the text of the second one read as attributes of the first. -/
theorem C64_false_two :
    parseRule [] t!"bar {x: 1} home {y: 2}" = .ok (some ⟨[], [⟨t!"bar", none, none⟩], [(t!"x", t!"1}")]⟩) ∧
    parseRule [] t!"bar {x: 1;} home {y: 2}" =
      .ok (some ⟨[], [⟨t!"bar", none, none⟩], [(t!"x", t!"1"), (t!"y", t!"2")]⟩) := by decide

/-- A rule without attributes or without selectors makes the whole style sheet fail; blanks between the
braces are enough to be accepted. -/
theorem C64_false_empty :
    parseRule [] t!"bar {}" = .error .assertion ∧ parseRule [] t!"{x: 1}" = .error .assertion ∧
    parseRule [] t!"bar { }" = .ok (some ⟨[], [⟨t!"bar", none, none⟩], []⟩) := by decide

/-- A rule whose selectors are not understood is kept without selectors, and then fails at every element. -/
theorem C64_false_selector :
    (∃ r, parseRule [] t!"* {x: 1}" = .ok (some r) ∧ r.pattern = []) ∧
    ∀ (r : Rule), r.pattern = [] → ∀ (anc : List Elem) (e : Elem), r.apply anc e = .error .assertion := by
  refine ⟨⟨⟨[], [], [(t!"x", t!"1")]⟩, by decide, rfl⟩, ?_⟩
  intro r hr anc e
  have : r.isMatch (anc ++ [e]) = .error .assertion := by
    rw [Rule.isMatch, hr]
    simp
  rw [Rule.apply, this]

/-- An attribute written with `=` instead of `:` is left out. -/
theorem C64_false_equals :
    parseRule [] t!"bar {x: 1; flip=True}" = .ok (some ⟨[], [⟨t!"bar", none, none⟩], [(t!"x", t!"1")]⟩) := by decide

end Bglib
