import Verif.Lemmas.ContentsPage
/-
The links of tables of contents and the texts of their entries.
-/
namespace Bglib.Doc
open Spec.Contents Spec.Document

variable {w : Wiki} {env : Env}

/-! ### Links -/

/-- How many headings there are among nodes. -/
def headingCount (w : Wiki) (is : List Nat) : Nat := (is.filter w.isHeading).length

theorem headingCount_cons (w : Wiki) (i : Nat) (is : List Nat) :
    headingCount w (i :: is) = (if w.isHeading i then 1 else 0) + headingCount w is := by
  unfold headingCount
  rw [List.filter_cons]
  split <;> simp [Nat.add_comm]

/-- No table of contents is a heading. -/
def TocApart (w : Wiki) : Prop := ∀ i, w.extra i = some .toc → w.isHeading i = false

theorem fitted_apart (h : Fitted w) : TocApart w := by
  intro i hi
  obtain ⟨n, h1, h2⟩ := h i _ (extra_mem hi)
  simp only [Extra.fits] at h2
  simp [Wiki.isHeading, h1, h2, Klass.level]

theorem targets_cons_contents (l : List Nat) (p : List PageMark) : targets (.contents l :: p) = targets p := rfl
theorem targets_cons_heading (o : Option Nat) (p : List PageMark) : targets (.heading o :: p) = o :: targets p := rfl
theorem links_cons_contents (l : List Nat) (p : List PageMark) : links (.contents l :: p) = l ++ links p := rfl
theorem links_cons_heading (o : Option Nat) (p : List PageMark) : links (.heading o :: p) = links p := rfl

theorem marks_true (ha : TocApart w) (total c : Nat) (is : List Nat) :
    targets (w.marks total true c is) = (List.range' c (headingCount w is)).map some := by
  induction is generalizing c with
  | nil => rfl
  | cons i is ih =>
    unfold Wiki.marks
    rw [headingCount_cons]
    split
    · next h => rw [targets_cons_contents, ih, ha i h]; simp
    · split
      · next h => rw [targets_cons_heading, ih, if_pos rfl, Nat.add_comm 1, List.range'_succ, List.map_cons]
      · next h => rw [ih, Nat.zero_add]

theorem marks_links (total : Nat) (m : Bool) (c : Nat) (is : List Nat) (k : Nat) (h : k ∈ links (w.marks total m c is)) : k < total := by
  induction is generalizing m c with
  | nil => cases h
  | cons i is ih =>
    unfold Wiki.marks at h
    split at h
    · rw [links_cons_contents] at h
      rcases List.mem_append.1 h with h | h
      · simpa using h
      · exact ih _ _ h
    · split at h
      · exact ih _ _ h
      · exact ih _ _ h

theorem marks_first (ha : TocApart w) (total c : Nat) (is : List Nat) :
    w.marks total false c is = [] ∨
    (∃ is', w.marks total false c is = .contents (List.range total) :: w.marks total true c is' ∧ headingCount w is' = headingCount w is) ∨
    (∃ is', w.marks total false c is = .heading none :: w.marks total false (c + 1) is' ∧ headingCount w is = headingCount w is' + 1) := by
  induction is with
  | nil => exact Or.inl rfl
  | cons i is ih =>
    rw [headingCount_cons]
    by_cases h : w.extra i = some .toc
    · exact Or.inr (Or.inl ⟨is, by rw [Wiki.marks, if_pos h], by rw [ha i h]; simp⟩)
    · by_cases h' : w.isHeading i = true
      · exact Or.inr (Or.inr ⟨is, by rw [Wiki.marks, if_neg h, if_pos h', if_neg (by simp)], by rw [if_pos h']; omega⟩)
      · rw [show w.marks total false c (i :: is) = w.marks total false c is by rw [Wiki.marks, if_neg h, if_neg h'], if_neg h', Nat.zero_add]
        exact ih

theorem contents_links (total : Nat) (m : Bool) (c : Nat) (is : List Nat) (l : List Nat) (h : .contents l ∈ w.marks total m c is) :
    l = List.range total := by
  induction is generalizing m c with
  | nil => cases h
  | cons i is ih =>
    unfold Wiki.marks at h
    split at h
    · rcases List.mem_cons.1 h with h | h
      · cases h; rfl
      · exact ih _ _ h
    · split at h
      · rcases List.mem_cons.1 h with h | h
        · cases h
        · exact ih _ _ h
      · exact ih _ _ h

theorem leads_range {p : List PageMark} {n : Nat} (h : targets p = (List.range n).map some) (hl : ∀ k ∈ links p, k < n) : Leads p := by
  intro k hk j
  rw [h, List.getElem?_map]
  have := hl k hk
  constructor
  · intro h
    obtain ⟨a, h1, h2⟩ := Option.map_eq_some_iff.1 h
    cases h2
    obtain ⟨h3, h4⟩ := List.getElem?_eq_some_iff.1 h1
    simpa using h4
  · rintro rfl
    rw [List.getElem?_range this]
    rfl

theorem links_none {p : List PageMark} (h : ∀ l, .contents l ∉ p) : links p = [] := by
  induction p with
  | nil => rfl
  | cons m p ih =>
    cases m with
    | contents l => exact absurd (by simp) (h l)
    | heading o => rw [links_cons_heading]; exact ih fun l hl => h l (by simp [hl])

theorem marks_leads (ha : TocApart w) (is : List Nat) (m : Bool) :
    Leads (w.marks (headingCount w is) m 0 is) ↔ m = true ∨ ContentsFirst (w.marks (headingCount w is) m 0 is) := by
  cases m with
  | true =>
    refine ⟨fun _ => Or.inl rfl, fun _ => ?_⟩
    refine leads_range ?_ (fun k hk => marks_links _ _ _ _ k hk)
    rw [marks_true ha, List.range_eq_range']
  | false =>
    simp only [Bool.false_eq_true, false_or]
    have hlinks := fun k (hk : k ∈ links (w.marks (headingCount w is) false 0 is)) => marks_links _ _ _ _ k hk
    have hcont := contents_links (w := w) (headingCount w is) false 0 is
    rcases marks_first ha (headingCount w is) 0 is with h | ⟨is', h, hc⟩ | ⟨is', h, hc⟩
    · rw [h]; exact ⟨fun _ => trivial, fun _ k hk => by cases hk⟩
    · refine ⟨fun _ => by rw [h]; trivial, fun _ => leads_range ?_ hlinks⟩
      rw [h, targets_cons_contents, marks_true ha, hc, List.range_eq_range']
    · constructor
      · intro hl
        rw [h] at hl hcont ⊢
        intro l hm
        have : l = List.range (headingCount w is) := hcont l (by simp [hm])
        have h0 : 0 ∈ links (PageMark.heading none :: w.marks (headingCount w is) false (0 + 1) is') := by
          refine List.mem_flatMap.2 ⟨.contents l, by simp [hm], ?_⟩
          show 0 ∈ l
          rw [this, hc]
          simp
        have := (hl 0 h0 0).2 rfl
        rw [targets_cons_heading] at this
        simp at this
      · intro hf
        rw [h] at hf ⊢
        intro k hk
        rw [links_cons_heading, links_none hf] at hk
        cases hk

theorem headings_length (w : Wiki) : w.doc.headings.length = headingCount w w.order := by
  unfold Editor.headings headingCount Wiki.order
  generalize w.doc.visited (w.doc.nodes.length + 1) 0 = l
  induction l with
  | nil => rfl
  | cons i l ih =>
    rw [List.filterMap_cons, List.filter_cons]
    cases hn : w.doc.nodes[i]? with
    | none => simp [Wiki.isHeading, hn, ih]
    | some n =>
      cases hl : n.klass.level with
      | none => simp [Wiki.isHeading, hn, hl, ih]
      | some v => simp [Wiki.isHeading, hn, hl, ih]

theorem page_leads (h : Fitted w) (m : Bool) : Leads (w.page m) ↔ m = true ∨ ContentsFirst (w.page m) := by
  unfold Wiki.page
  rw [headings_length]
  exact marks_leads (fitted_apart h) _ m

theorem page_first (h : TocFirst w) : ∃ p, w.page false = .contents (List.range w.doc.headings.length) :: p := by
  obtain ⟨n0, ks, a1, a2, a3⟩ := h.root
  obtain ⟨n1, b1, b2, b3⟩ := h.div
  obtain ⟨n2, c1, c2, c3⟩ := h.toc
  have hl := first_length h
  obtain ⟨f, hf⟩ : ∃ f, w.doc.nodes.length = f + 3 := ⟨w.doc.nodes.length - 3, by omega⟩
  have ho : ∃ r, w.order = 0 :: 1 :: 2 :: r := by
    unfold Wiki.order
    rw [hf]
    refine ⟨(ks.map (w.doc.visited (f + 3))).flatten, ?_⟩
    have e1 : w.doc.visited (f + 3) 1 = [1] := by unfold Editor.visited; simp [b1, b3]
    have e2 : w.doc.visited (f + 3) 2 = [2] := by unfold Editor.visited; simp [c1, c3]
    rw [show f + 3 + 1 = (f + 3) + 1 from rfl, Editor.visited, a1]
    simp [a3, e1, e2]
  obtain ⟨r, hr⟩ := ho
  unfold Wiki.page
  rw [hr]
  have g0 : w.isHeading 0 = false := by simp [Wiki.isHeading, a1, a2, Klass.level]
  have g1 : w.isHeading 1 = false := by simp [Wiki.isHeading, b1, b2, Klass.level]
  refine ⟨w.marks w.doc.headings.length true 0 r, ?_⟩
  rw [Wiki.marks, h.first, if_neg (by simp), g0, if_neg (by simp), Wiki.marks, h.second, if_neg (by simp), g1, if_neg (by simp),
    Wiki.marks, h.third, if_pos rfl]

/-! ### Items -/

theorem itemsIn_texts (ts : List Text) (d : Nat) (u : Text) (r : List Tok) :
    itemsIn d (some u) (textToks ts ++ r) = itemsIn d (some (u ++ ts.flatMap (· ++ ['\n']))) r := by
  induction ts generalizing u with
  | nil => simp [textToks]
  | cons t ts ih =>
    have := ih (u ++ t ++ ['\n'])
    simp only [textToks, List.flatMap_cons, List.cons_append, List.nil_append, itemsIn, Option.map_some] at this ⊢
    rw [this]
    simp

theorem itemsIn_item (ts : List Text) (d : Nat) (r : List Tok) :
    itemsIn d none (itemToks ts ++ r) = (d, ts.flatMap (· ++ ['\n'])) :: itemsIn d none r := by
  unfold itemToks element
  simp [itemsIn, itemsIn_texts]

theorem itemsIn_enters (n d : Nat) (r : List Tok) :
    itemsIn d none (List.replicate n (.opening t!"ol") ++ r) = itemsIn (d + n) none r := by
  induction n generalizing d with
  | zero => rfl
  | succ n ih =>
    rw [List.replicate_succ, List.cons_append, itemsIn, if_pos rfl, ih, Nat.add_assoc, Nat.add_comm 1]

theorem itemsIn_leaves (n d : Nat) (r : List Tok) :
    itemsIn d none (List.replicate n (.closing t!"ol") ++ r) = itemsIn (d - n) none r := by
  induction n generalizing d with
  | zero => rfl
  | succ n ih =>
    rw [List.replicate_succ, List.cons_append, itemsIn, if_pos rfl, ih]
    congr 1
    omega

theorem itemsIn_entryToks (m : Nat) (hs : List (Nat × List (Option Text))) :
    itemsIn (m + 1) none (entryToks m hs ++ [.closing t!"ol"]) = hs.map fun h => (h.1 + 1, (h.2.filterMap id).flatMap (· ++ ['\n'])) := by
  induction hs generalizing m with
  | nil =>
    rw [entryToks, itemsIn_leaves, itemsIn, if_pos rfl]
    rfl
  | cons h hs ih =>
    rw [entryToks, List.append_assoc, List.append_assoc, List.append_assoc, itemsIn_enters, itemsIn_leaves, itemsIn_item,
      show m + 1 + (h.1 - m) - (m - h.1) = h.1 + 1 by omega, ih]
    rfl

theorem itemsIn_toc (hs : List (Nat × List (Option Text))) :
    itemsIn 0 none (element t!"ol" (entryToks 0 hs)) = hs.map fun h => (h.1 + 1, (h.2.filterMap id).flatMap (· ++ ['\n'])) := by
  unfold element
  rw [List.cons_append, itemsIn, if_pos rfl]
  exact itemsIn_entryToks 0 hs

/-! ### Texts -/

theorem textOf_append (a b : List Tok) : textOf (a ++ b) = textOf a ++ textOf b := by
  induction a with
  | nil => rfl
  | cons x a ih => cases x <;> simp [textOf, ih]

theorem accept_text (hf : Fitted w) {i : Nat} {n : Node} (hn : w.doc.nodes[i]? = some n) (hk : n.klass = .text) (hc : n.children = []) (fuel : Nat) :
    w.accept env (fuel + 1) i = .ok [.text n.text, .text ['\n']] := by
  have hx : w.extra i = none := by
    cases h : w.extra i with
    | none => rfl
    | some x =>
      obtain ⟨m, h1, h2⟩ := hf i x (extra_mem h)
      rw [hn] at h1
      cases h1
      rw [hk] at h2
      cases x <;> simp [Extra.fits] at h2
  simp only [Wiki.accept, hn, Wiki.opens, Wiki.closes, hx, Node.opens, Node.closes, hk, hc, acceptAll, bind, Except.bind]
  rfl

theorem accept_anchor (hf : Fitted w) {i j : Nat} {n m : Node} (hn : w.doc.nodes[i]? = some n) (hk : n.klass = .anchor) (hc : n.children = [j])
    (hm : w.doc.nodes[j]? = some m) (hmk : m.klass = .text) (hmc : m.children = []) (fuel : Nat) :
    w.accept env (fuel + 2) i = .ok (element t!"a" [.text m.text, .text ['\n']]) := by
  have hx : w.extra i = none ∨ ∃ l, w.extra i = some (.attrs l) := by
    cases h : w.extra i with
    | none => exact Or.inl rfl
    | some x =>
      obtain ⟨m, h1, h2⟩ := hf i x (extra_mem h)
      rw [hn] at h1
      cases h1
      rw [hk] at h2
      cases x with
      | attrs l => exact Or.inr ⟨l, rfl⟩
      | item b => simp [Extra.fits] at h2
      | block b r => simp [Extra.fits] at h2
      | toc => simp [Extra.fits] at h2
  have ht := accept_text (env := env) hf hm hmk hmc fuel
  rw [show fuel + 2 = fuel + 1 + 1 from rfl, Wiki.accept, hn]
  rcases hx with hx | ⟨l, hx⟩ <;>
    simp only [Wiki.opens, Wiki.closes, hx, Node.opens, Node.closes, hk, hc, acceptAll, ht, bind, Except.bind] <;> rfl

theorem accept_simple (hf : Fitted w) (is : List Nat)
    (h : ∀ j ∈ is, ∃ m, w.doc.nodes[j]? = some m ∧
    ((m.klass = .text ∧ m.children = []) ∨ (m.klass = .anchor ∧ ∃ k t, m.children = [k] ∧ w.doc.nodes[k]? = some t ∧ t.klass = .text ∧ t.children = []))) (fuel : Nat) :
    none ∉ is.map w.doc.deAnchor ∧ ∃ b, acceptAll (w.accept env (fuel + 2)) is = .ok b ∧ textOf b = ((is.map w.doc.deAnchor).filterMap id).flatMap (· ++ ['\n']) := by
  induction is with
  | nil => exact ⟨by simp, [], rfl, rfl⟩
  | cons i is ih =>
    obtain ⟨h1, b, h2, h3⟩ := ih fun j hj => h j (by simp [hj])
    obtain ⟨m, hm, hm'⟩ := h i (by simp)
    rcases hm' with ⟨hk, hc⟩ | ⟨hk, k, t, hc, ht, htk, htc⟩
    · have hd : w.doc.deAnchor i = some m.text := by simp [Editor.deAnchor, hm, hk]
      refine ⟨by simp only [List.map_cons, List.mem_cons, hd, reduceCtorEq, false_or]; exact h1, [.text m.text, .text ['\n']] ++ b, ?_, ?_⟩
      · simp only [acceptAll, accept_text hf hm hk hc (fuel + 1), h2]
      · rw [textOf_append, h3, List.map_cons, hd]
        simp [textOf]
    · have hd : w.doc.deAnchor i = some t.text := by simp [Editor.deAnchor, hm, hk, hc, ht, htk]
      refine ⟨by simp only [List.map_cons, List.mem_cons, hd, reduceCtorEq, false_or]; exact h1, element t!"a" [.text t.text, .text ['\n']] ++ b, ?_, ?_⟩
      · simp only [acceptAll, accept_anchor hf hm hk hc ht htk htc fuel, h2]
      · rw [textOf_append, h3, List.map_cons, hd]
        simp [textOf, element]

theorem heading_text (hf : Fitted w) {i : Nat} (hi : w.isHeading i = true) (hs : Simple w i) :
    ∃ n l, w.doc.nodes[i]? = some n ∧ n.klass.level = some l ∧ depthOf w i = l + 1 ∧ none ∉ n.children.map w.doc.deAnchor ∧
      textAt w env i = ((n.children.map w.doc.deAnchor).filterMap id).flatMap (· ++ ['\n']) := by
  unfold Wiki.isHeading at hi
  obtain ⟨l, hl⟩ := Option.isSome_iff_exists.1 hi
  obtain ⟨n, hn, hl⟩ := Option.bind_eq_some_iff.1 hl
  obtain ⟨f, hlen⟩ : ∃ f, w.doc.nodes.length = f + 1 := ⟨w.doc.nodes.length - 1, by have := lt_of_get hn; omega⟩
  obtain ⟨h1, b, h2, h3⟩ := accept_simple (env := env) hf n.children (hs n hn) f
  have hx : w.extra i = none := by
    cases h : w.extra i with
    | none => rfl
    | some x =>
      obtain ⟨m, k1, k2⟩ := hf i x (extra_mem h)
      rw [hn] at k1
      cases k1
      cases x <;> simp only [Extra.fits] at k2 <;> rw [k2] at hl <;> simp [Klass.level] at hl
  refine ⟨n, l, hn, hl, ?_, h1, ?_⟩
  · unfold depthOf
    rw [hn]
    obtain ⟨k, p, c, t⟩ := n
    cases k <;> simp [Klass.level] at hl <;> simp [← hl]
  · unfold textAt
    rw [hlen, show f + 1 + 2 = f + 2 + 1 from rfl, Wiki.accept, hn]
    obtain ⟨k, p, c, t⟩ := n
    cases k <;> simp [Klass.level] at hl <;>
      simp [Wiki.opens, Wiki.closes, hx, Node.opens, Node.closes, Klass.tag, h2, bind, Except.bind, pure, Except.pure, textOf, textOf_append, h3]

/-- The headings one by one. -/
theorem headings_eq (w : Wiki) : w.doc.headings = (headingNodes w).map fun i =>
    ((depthOf w i) - 1, match w.doc.nodes[i]? with
      | some n => n.children.map w.doc.deAnchor
      | none => []) := by
  unfold Editor.headings headingNodes Wiki.order
  generalize w.doc.visited (w.doc.nodes.length + 1) 0 = l
  induction l with
  | nil => rfl
  | cons i l ih =>
    rw [List.filterMap_cons, List.filter_cons]
    cases hn : w.doc.nodes[i]? with
    | none => simp [Wiki.isHeading, hn, ih]
    | some n =>
      cases hl : n.klass.level with
      | none => simp [Wiki.isHeading, hn, hl, ih]
      | some v =>
        have hd : depthOf w i = v + 1 := by
          unfold depthOf
          rw [hn]
          obtain ⟨k, p, c, t⟩ := n
          cases k <;> simp [Klass.level] at hl <;> simp [← hl]
        simp [Wiki.isHeading, hn, hl, ih, hd]

theorem toc_fails (e : Editor) (h : ∃ h ∈ e.headings, none ∈ h.2) : ∀ t, tocHtml e ≠ .ok t := by
  intro t ht
  unfold tocHtml at ht
  have hany : e.headings.any (fun h => h.2.any Option.isNone) = true := by
    obtain ⟨x, h1, h2⟩ := h
    exact List.any_eq_true.2 ⟨x, h1, List.any_eq_true.2 ⟨none, h2, rfl⟩⟩
  simp only [bind, Except.bind, hany, if_true] at ht
  split at ht
  · cases ht
  · split at ht
    · cases ht
    · cases ht

theorem depth_pos {i : Nat} (h : w.isHeading i = true) : depthOf w i - 1 + 1 = depthOf w i := by
  unfold Wiki.isHeading at h
  obtain ⟨l, hl⟩ := Option.isSome_iff_exists.1 h
  obtain ⟨n, hn, hl⟩ := Option.bind_eq_some_iff.1 hl
  obtain ⟨k, p, c, t⟩ := n
  unfold depthOf
  rw [hn]
  cases k <;> simp [Klass.level] at hl <;> rfl

end Bglib.Doc
