import Verif.Lemmas.ContentsLinks
import Verif.Spec.Contents
/-
C99: tables of contents list the headings, and their links lead to them.
-/
namespace Bglib
open Doc Spec.Contents

/-- A document is needed for the rest: what parsing a text gives. -/
private def parsed (t : Text) : Wiki := match Wiki.start.parse {} t with
  | .ok w => w
  | .error _ => Wiki.start

/-- The entries are as many as the headings, in their order, in one, two or three lists for the three kinds of headings. -/
theorem C99_order (env : Env) (text : Text) (w : Wiki) (_h : Wiki.start.parse env text = .ok w) (t : List Tok) (ht : tocHtml w.doc = .ok t) :
    (itemsIn 0 none t).map (·.1) = (headingNodes w).map (depthOf w) := by
  have hn : ∀ h ∈ w.doc.headings, none ∉ h.2 := fun h hh hm => toc_fails w.doc ⟨h, hh, hm⟩ t ht
  rw [toc_entryToks w.doc hn] at ht
  cases ht
  rw [itemsIn_toc, headings_eq, List.map_map, List.map_map]
  refine List.map_congr_left fun i hi => ?_
  exact depth_pos (List.mem_filter.1 hi).2

/-- The table is written exactly when the headings consist of texts and links. -/
theorem C99_written (env : Env) (text : Text) (w : Wiki) (_h : Wiki.start.parse env text = .ok w) :
    (∃ t, tocHtml w.doc = .ok t) ↔ Plainly w := by
  have key : (∀ h ∈ w.doc.headings, none ∉ h.2) ↔ Plainly w := by
    rw [headings_eq]
    have hd : ∀ j, w.doc.deAnchor j ≠ none ↔ ∃ m, w.doc.nodes[j]? = some m ∧ (m.klass = .text ∨ m.klass = .anchor) := by
      intro j
      unfold Editor.deAnchor
      cases w.doc.nodes[j]? with
      | none => simp
      | some m =>
        dsimp only
        by_cases h1 : m.klass = .text
        · simp [h1]
        · by_cases h2 : m.klass = .anchor <;> simp [h1, h2]
    constructor
    · intro h i hi n hn j hj
      refine (hd j).1 fun hnone => h _ (List.mem_map.2 ⟨i, hi, rfl⟩) ?_
      dsimp only
      rw [hn]
      exact List.mem_map.2 ⟨j, hj, hnone⟩
    · intro h x hx hm
      obtain ⟨i, hi, rfl⟩ := List.mem_map.1 hx
      dsimp only at hm
      split at hm
      · next n hn =>
        obtain ⟨j, hj, hjn⟩ := List.mem_map.1 hm
        exact (hd j).2 (h i hi n hn j hj) hjn
      · cases hm
  rw [← key]
  constructor
  · rintro ⟨t, ht⟩ h hh hm
    exact toc_fails w.doc ⟨h, hh, hm⟩ t ht
  · intro h
    exact ⟨_, toc_entryToks w.doc h⟩

/-- If the headings consist of texts and of links with one text, the entries have their texts.
Partial: not for links to the web, see `C99_false_ext`. -/
theorem C99_entries_partial (env : Env) (text : Text) (w : Wiki) (h : Wiki.start.parse env text = .ok w)
    (hs : ∀ i ∈ headingNodes w, Simple w i) :
    ∃ t, tocHtml w.doc = .ok t ∧ itemsIn 0 none t = (headingNodes w).map fun i => (depthOf w i, textAt w env i) := by
  have hf := fitted_parse h
  have hi : ∀ i ∈ headingNodes w, w.isHeading i = true := fun i hi => (List.mem_filter.1 hi).2
  have hn : ∀ x ∈ w.doc.headings, none ∉ x.2 := by
    rw [headings_eq]
    intro x hx
    obtain ⟨i, h1, rfl⟩ := List.mem_map.1 hx
    obtain ⟨n, l, k1, _, _, k4, _⟩ := heading_text (env := env) hf (hi i h1) (hs i h1)
    dsimp only
    rw [k1]
    exact k4
  refine ⟨_, toc_entryToks w.doc hn, ?_⟩
  rw [itemsIn_toc, headings_eq, List.map_map]
  refine List.map_congr_left fun i h1 => ?_
  obtain ⟨n, l, k1, _, k3, _, k5⟩ := heading_text (env := env) hf (hi i h1) (hs i h1)
  simp only [Function.comp_apply, k1, k3, k5, Nat.add_sub_cancel]

/-- A check of nodes. -/
private def simpleNode (w : Wiki) (i : Nat) : Bool := match w.doc.nodes[i]? with
  | none => true
  | some n => n.children.all fun j => match w.doc.nodes[j]? with
    | none => false
    | some m => (m.klass = .text && m.children = []) || (m.klass = .anchor && match m.children with
      | [k] => match w.doc.nodes[k]? with
        | none => false
        | some t => t.klass = .text && t.children = []
      | _ => false)

private theorem simple_of {w : Wiki} {i : Nat} (h : simpleNode w i = true) : Simple w i := by
  intro n hn j hj
  unfold simpleNode at h
  rw [hn] at h
  have := List.all_eq_true.1 h j hj
  split at this
  · cases this
  · next m hm =>
    refine ⟨m, hm, ?_⟩
    simp only [Bool.or_eq_true, Bool.and_eq_true, decide_eq_true_eq] at this
    rcases this with h | ⟨h1, h2⟩
    · exact Or.inl h
    · refine Or.inr ⟨h1, ?_⟩
      split at h2
      · next k hk =>
        split at h2
        · cases h2
        · next t ht =>
          simp only [Bool.and_eq_true, decide_eq_true_eq] at h2
          exact ⟨k, t, hk, ht, h2⟩
      · cases h2

example : ∀ i ∈ headingNodes (parsed t!"[[TableOfContent]]\n= a BcDe =\n== f =="), Simple (parsed t!"[[TableOfContent]]\n= a BcDe =\n== f ==") i :=
  fun i hi => simple_of ((by decide +kernel : ∀ i ∈ headingNodes (parsed t!"[[TableOfContent]]\n= a BcDe =\n== f =="),
    simpleNode (parsed t!"[[TableOfContent]]\n= a BcDe =\n== f ==") i = true) i hi)

example : ∃ w, Wiki.start.parse {} t!"[[TableOfContent]]\n= a BcDe =\n== f ==" = .ok w ∧ (headingNodes w).map (fun i => (depthOf w i, textAt w {} i)) =
    [(1, t!" a \nBcDe\n \n"), (2, t!" f \n")] :=
  ⟨parsed t!"[[TableOfContent]]\n= a BcDe =\n== f ==", by decide +kernel, by decide +kernel⟩

/-- A link to the web in a heading is missing in the entry. -/
theorem C99_false_ext : ∃ (text : Text) (w : Wiki) (t : List Tok), Wiki.start.parse {} text = .ok w ∧ tocHtml w.doc = .ok t ∧
    itemsIn 0 none t ≠ (headingNodes w).map fun i => (depthOf w i, textAt w {} i) :=
  ⟨t!"= a [http://x.y z] =", parsed t!"= a [http://x.y z] =", [.opening t!"ol", .opening t!"li", .opening t!"a", .text t!" a ", .text ['\n'], .text [],
    .text ['\n'], .text t!" ", .text ['\n'], .closing t!"a", .closing t!"li", .closing t!"ol"], by decide +kernel, by decide +kernel, by decide +kernel⟩

/-- Emphasis in a heading, and there is no page. -/
theorem C99_false_bold : ∃ (text : Text) (w : Wiki), Wiki.start.parse {} text = .ok w ∧ w.html {} = .error .attributeError :=
  ⟨t!"[[TableOfContent]]\n= '''a''' =", parsed t!"[[TableOfContent]]\n= '''a''' =", by decide +kernel, by decide +kernel⟩

/-- All links lead to their headings if and only if the page was written before or no heading stands before the first table. -/
theorem C99_links (env : Env) (text : Text) (w : Wiki) (h : Wiki.start.parse env text = .ok w) (marked : Bool) :
    Leads (w.page marked) ↔ marked = true ∨ ContentsFirst (w.page marked) := page_leads (fitted_parse h) marked

/-- In a text that begins with a table of contents they do. -/
theorem C99_first (env : Env) (rest : Text) (w : Wiki) (h : Wiki.start.parse env (t!"[[TableOfContent]]\n" ++ rest) = .ok w) :
    Leads (w.page false) ∧ ∃ p, w.page false = .contents (List.range (headingNodes w).length) :: p := by
  obtain ⟨p, hp⟩ := page_first (first_parse rest h)
  refine ⟨(C99_links env _ w h false).2 (Or.inr (by rw [hp]; trivial)), p, ?_⟩
  rw [hp, headings_eq, List.length_map]

example : (parsed t!"[[TableOfContent]]\n= a =\n== b ==\n= c =").page false =
    [.contents [0, 1, 2], .heading (some 0), .heading (some 1), .heading (some 2)] := by decide +kernel

/-- Behind a heading they do not. -/
theorem C99_false_after : ∃ (text : Text) (w : Wiki), Wiki.start.parse {} text = .ok w ∧ ¬ Leads (w.page false) := by
  refine ⟨t!"= a =\n[[TableOfContent]]", parsed t!"= a =\n[[TableOfContent]]", by decide +kernel, ?_⟩
  have : (parsed t!"= a =\n[[TableOfContent]]").page false = [.heading none, .contents [0]] := by decide +kernel
  rw [this]
  intro h
  have := (h 0 (by decide) 0).2 rfl
  exact absurd this (by decide)

end Bglib
