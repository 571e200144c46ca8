import Verif.Props.Wiki
import Verif.Lemmas.WikiLinks
import Verif.Props.Doctree
/-
Links in wiki text: C62.
-/
namespace Bglib
open Spec Doc

/-! ### C62: links lead where the text says -/

theorem links_are (env : Env) (text : Text) (l : List (Text × Text)) (h : l ∈ linksOf env text) :
    IsLink env.wikipath text l := by
  unfold linksOf at h
  split at h
  · next w hw =>
    obtain ⟨⟨i, x⟩, h1, h2⟩ := List.mem_filterMap.1 h
    cases x with
    | attrs l' => cases h2; exact parse_links env text w hw i l h1
    | _ => cases h2
  · simp at h

/-- Every link made from a text has a class, a title and an address, and leads to an address the text
names: an entry, a query, a match, a wiki page, or a web address with `http` or `https`; the web address
has been escaped. -/
theorem C62_links (env : Env) (text : Text) (l : List (Text × Text)) (h : l ∈ linksOf env text) :
    ∃ c t a, l = [(t!"class", c), (t!"title", t), (t!"href", if c = t!"ext-link" then escape a else a)] ∧
      LinkTo env.wikipath text c a :=
  links_are env text l h

theorem escape_plain (a : Text) (h : ∀ c ∈ a, c ≠ '<' ∧ c ≠ '>' ∧ c ≠ '&') : escape a = a := by
  unfold escape
  induction a with
  | nil => rfl
  | cons c a ih =>
    obtain ⟨h1, h2, h3⟩ := h c (by simp)
    rw [List.flatMap_cons, ih fun d hd => h d (by simp [hd])]
    simp [escapeChar, h1, h2, h3]

theorem weburl_chars {u : Text} (h : WebUrl u) : ∀ c ∈ u, c ≠ '<' ∧ c ≠ '>' ∧ c ≠ '"' := by
  obtain ⟨r, _, h1, h2⟩ := h
  have hu : ∀ c ∈ u, urlChar c = true ∨ c = ':' := by
    have hp : (∀ c ∈ t!"http://", urlChar c = true ∨ c = ':') ∧ (∀ c ∈ t!"https://", urlChar c = true ∨ c = ':') := by
      decide
    intro c hc
    rcases h1 with rfl | rfl <;> rcases List.mem_append.1 hc with hc | hc
    · exact hp.1 c hc
    · exact Or.inl (h2 c hc)
    · exact hp.2 c hc
    · exact Or.inl (h2 c hc)
  intro c hc
  refine ⟨?_, ?_, ?_⟩ <;> rintro rfl <;> exact absurd (hu _ hc) (by decide)

/-- A reader of the attribute as written finds the address meant, if it is not a web address with `&`. -/
theorem C62_address_partial (env : Env) (text : Text) (l : List (Text × Text)) (h : l ∈ linksOf env text) :
    ∃ c a href, (t!"href", href) ∈ l ∧ LinkTo env.wikipath text c a ∧
      (c ≠ t!"ext-link" ∨ '&' ∉ a → unescape (escape href) = a) := by
  obtain ⟨c, t, a, rfl, hl⟩ := C62_links env text l h
  refine ⟨c, a, if c = t!"ext-link" then escape a else a, by simp, hl, fun hc => ?_⟩
  rw [C36_lossless]
  split
  · next he =>
    have ha : '&' ∉ a := hc.resolve_left fun h => h he
    have hu : WebUrl a := by
      cases hl with
      | web _ h _ => exact h
      | _ => exact absurd he (by decide)
    exact escape_plain a fun d hd => ⟨(weburl_chars hu d hd).1, (weburl_chars hu d hd).2.1, fun h => ha (h ▸ hd)⟩
  · rfl

/-- The address does not end the attribute, if the path of wiki pages does not. -/
theorem C62_quotes (env : Env) (text : Text) (l : List (Text × Text)) (hw : '"' ∉ env.wikipath)
    (h : l ∈ linksOf env text) (href : Text) (hr : (t!"href", href) ∈ l) : '"' ∉ escape href := by
  have hesc : ∀ s : Text, '"' ∉ s → '"' ∉ escape s := by
    intro s hs hq
    obtain ⟨c, hc, hq⟩ := List.mem_flatMap.1 hq
    have hno : '"' ∉ t!"&lt;" ∧ '"' ∉ t!"&gt;" ∧ '"' ∉ t!"&amp;" := by decide
    unfold escapeChar at hq
    split at hq
    · exact hno.1 hq
    · split at hq
      · exact hno.2.1 hq
      · split at hq
        · exact hno.2.2 hq
        · rw [List.mem_singleton.1 hq] at hs
          exact hs hc
  obtain ⟨c, t, a, rfl, hl⟩ := C62_links env text l h
  have hrr : href = if c = t!"ext-link" then escape a else a := by simpa using hr
  have hd : ∀ d, Number d → '"' ∉ d := fun d h hq => absurd (h.2 _ hq) (by decide)
  have ha : '"' ∉ a := by
    cases hl with
    | entry d hn _ =>
      exact fun hq => (List.mem_append.1 hq).elim (fun h => absurd h (by decide)) (hd d hn)
    | query d hn _ =>
      exact fun hq => (List.mem_append.1 hq).elim (fun h => absurd h (by decide)) (hd d hn)
    | «match» d hn _ =>
      exact fun hq => (List.mem_append.1 hq).elim (fun h => absurd h (by decide)) (hd d hn)
    | wiki n hn _ =>
      exact fun hq => (List.mem_append.1 hq).elim hw fun hq => absurd (hn.2 _ hq) (by decide)
    | web _ hn _ => exact fun hq => (weburl_chars hn _ hq).2.2 rfl
  rw [hrr]
  split
  · exact hesc _ (hesc _ ha)
  · exact hesc _ ha

/-- Non-vacuity: the five kinds of links. -/
example : (linksOf {} t!"entry:7 {8} [9] AbCd http://a.b").map (fun l => l.map (·.2)) =
    [[t!"ext-link", t!"title", t!"http://a.b"], [t!"wiki-link", t!"AbCd", t!"/AbCd"], [t!"match", t!"title", t!"/match/9"],
     [t!"query", t!"{8}", t!"/query/8"], [t!"entry", t!"entry:7", t!"/entry/7"]] := by decide
/-- No links where the text says so. -/
example : linksOf {} t!"!#7 !AbCd !http://a.b javascript:a" = [] := by decide
example : '"' ∉ ({} : Env).wikipath := by decide

/-- The code escapes a web address twice: what a reader of the attribute finds is not the address. -/
theorem C62_false_amp :
    (linksOf {} t!"[http://a/?b&c]").map (fun l => l.map fun x => attributeText x.1 x.2) =
      [[t!"class=\"ext-link\"", t!"title=\"http://a/?b&amp;amp;c\"", t!"href=\"http://a/?b&amp;amp;c\""]] ∧
    unescape t!"http://a/?b&amp;amp;c" = t!"http://a/?b&amp;c" ∧
    unescape t!"http://a/?b&amp;c" = t!"http://a/?b&c" := by decide

end Bglib
