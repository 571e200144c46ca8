import Verif.Lemmas.Contents
import Verif.Lemmas.WikiKept
/-
The place of a table of contents in the document, and the nodes about which things are known.
-/
namespace Bglib.Doc
open Spec.Contents

variable {w w' : Wiki} {env : Env}

theorem append_effect {e d : Editor} {k : Klass} {i : Nat} (h : e.append k = .ok (d, i)) :
    ∃ c, e.climb (fun n => n.klass.accepts k) (e.nodes.length + 1) e.current = .ok (some c) ∧ i = e.nodes.length ∧
      d = ⟨e.nodes.modify c (fun n => { n with children := n.children ++ [e.nodes.length] }) ++ [⟨k, e.current, [], []⟩], some c⟩ := by
  unfold Editor.append at h
  split at h
  · cases h
  · split at h
    · cases h
    · cases h
    · next c hc =>
      have := Prod.mk.inj (Except.ok.inj h)
      exact ⟨c, hc, this.2.symm, this.1.symm⟩

/-- A node of an extended document. -/
theorem get_grown (nodes : List Node) (c j : Nat) (f : Node → Node) (n : Node) :
    (nodes.modify c f ++ [n])[j]? =
      if j < nodes.length then (nodes[j]?).map (fun m => if j = c then f m else m) else if j = nodes.length then some n else none := by
  by_cases h : j < nodes.length
  · rw [if_pos h, List.getElem?_append_left (by simpa using h), List.getElem?_modify]
    by_cases hc : c = j
    · subst hc; simp
    · have : ¬ j = c := fun e => hc e.symm
      simp [hc, this]
  · rw [if_neg h, List.getElem?_append_right (by simpa using h)]
    by_cases h' : j = nodes.length
    · subst h'; simp
    · rw [if_neg h', List.getElem?_eq_none (by simp; omega)]

theorem text_effect {e d : Editor} {t : Text} (h : e.appendText t = .ok d) :
    d.current = e.current ∧ ((∃ i m, e.nodes[i]? = some m ∧ m.klass = .text ∧ d.nodes = e.nodes.modify i fun m => { m with text := m.text ++ t }) ∨
      ∃ c, e.current = some c ∧ d.nodes = e.nodes.modify c (fun n => { n with children := n.children ++ [e.nodes.length] }) ++ [⟨.text, some c, [], t⟩]) := by
  unfold Editor.appendText at h
  split at h
  · cases h
  · next c n hc =>
    have hcur : e.current = some c := by
      obtain ⟨c', h1, h2⟩ := Option.bind_eq_some_iff.1 hc
      obtain ⟨n', _, h4⟩ := Option.map_eq_some_iff.1 h2
      have := Prod.mk.inj h4
      rw [← this.1]; exact h1
    split at h
    · next i m hi =>
      split at h
      · next hm =>
        cases h
        obtain ⟨c', _, h2⟩ := Option.bind_eq_some_iff.1 hi
        obtain ⟨n', h3, h4⟩ := Option.map_eq_some_iff.1 h2
        have := Prod.mk.inj h4
        exact ⟨rfl, Or.inl ⟨i, m, by rw [← this.1, ← this.2]; exact h3, hm, rfl⟩⟩
      · cases h; exact ⟨rfl, Or.inr ⟨c, hcur, rfl⟩⟩
    · cases h; exact ⟨rfl, Or.inr ⟨c, hcur, rfl⟩⟩

/-! ### What is known is about nodes of the right class -/

/-- What is known is about nodes of the right class. -/
def Fitted (w : Wiki) : Prop := ∀ i x, (i, x) ∈ w.side → ∃ n, w.doc.nodes[i]? = some n ∧ x.fits n.klass

/-- Nodes keep their classes. -/
def SameKlass (a b : List Node) : Prop := ∀ (i : Nat) (n : Node), a[i]? = some n → ∃ m : Node, b[i]? = some m ∧ m.klass = n.klass

theorem fitted_same {d : Editor} (h : Fitted w) (hd : SameKlass w.doc.nodes d.nodes) : Fitted { w with doc := d } := by
  intro i x hx
  obtain ⟨n, h1, h2⟩ := h i x hx
  obtain ⟨m, h3, h4⟩ := hd i n h1
  exact ⟨m, h3, by rw [h4]; exact h2⟩

theorem same_grown (nodes : List Node) (c : Nat) (f : Node → Node) (hf : ∀ n, (f n).klass = n.klass) (n : Node) :
    SameKlass nodes (nodes.modify c f ++ [n]) := by
  intro i m h
  have hl : i < nodes.length := (List.getElem?_eq_some_iff.1 h).1
  rw [get_grown, if_pos hl, h, Option.map_some]
  refine ⟨_, rfl, ?_⟩
  split
  · exact hf m
  · rfl

theorem same_modify (nodes : List Node) (c : Nat) (f : Node → Node) (hf : ∀ n, (f n).klass = n.klass) :
    SameKlass nodes (nodes.modify c f) := by
  intro i m h
  rw [List.getElem?_modify, h]
  refine ⟨_, rfl, ?_⟩
  split
  · exact hf m
  · rfl

theorem append_same {e d : Editor} {k : Klass} {i : Nat} (h : e.append k = .ok (d, i)) :
    SameKlass e.nodes d.nodes ∧ ∃ n, d.nodes[i]? = some n ∧ n.klass = k := by
  obtain ⟨c, _, rfl, rfl⟩ := append_effect h
  refine ⟨same_grown _ _ _ (by intro n; rfl) _, ⟨k, e.current, [], []⟩, ?_, rfl⟩
  rw [get_grown, if_neg (Nat.lt_irrefl _), if_pos rfl]

theorem fitted_side {d : Editor} {i : Nat} {x : Extra} (h : Fitted w) (hd : SameKlass w.doc.nodes d.nodes)
    (hi : ∃ n, d.nodes[i]? = some n ∧ x.fits n.klass) : Fitted ⟨d, (i, x) :: w.side⟩ := by
  intro j y hy
  rcases List.mem_cons.1 hy with hy | hy
  · cases hy; exact hi
  · exact fitted_same h hd j y hy

theorem extra_mem {i : Nat} {x : Extra} (h : w.extra i = some x) : (i, x) ∈ w.side := by
  unfold Wiki.extra at h
  obtain ⟨y, h1, h2⟩ := Option.map_eq_some_iff.1 h
  have := List.find?_some h1
  have h3 : y.1 = i := by simpa using this
  rw [← h2, ← h3]
  exact List.mem_of_find?_eq_some h1

theorem fitted_lasting : Lasting Fitted where
  enter w k x h hx := by
    intro w' e
    unfold Wiki.enter at e
    split at e
    · cases e
    · next d i ha =>
      obtain ⟨h1, h2, h3, h4⟩ := append_same ha
      cases x with
      | none => cases e; exact fitted_same (d := { d with current := some i }) h h1
      | some x => cases e; exact fitted_side (d := { d with current := some i }) h h1 ⟨h2, h3, by rw [h4]; exact hx x rfl⟩
  append w k d i h ha := fitted_same h (append_same ha).1
  toc w d i h ha := by
    obtain ⟨h1, h2, h3, h4⟩ := append_same ha
    exact fitted_side h h1 ⟨h2, h3, h4⟩
  leave w ks h := by
    intro w' e
    obtain ⟨h1, h2⟩ := side_leave e
    intro i x hx
    rw [h1] at hx
    rw [h2]
    exact h i x hx
  text w t h := by
    intro w' e
    unfold Wiki.text at e
    split at e
    · cases e
    · next d ha =>
      cases e
      refine fitted_same h ?_
      rcases (text_effect ha).2 with ⟨i, m, _, _, h3⟩ | ⟨c, _, h3⟩
      · rw [h3]; exact same_modify _ _ _ fun _ => rfl
      · rw [h3]; exact same_grown _ _ _ (by intro n; rfl) _
  goto w ks i h _ := h
  done w h := h
  block w c b r b' r' h hx := by
    intro j y hy
    rcases List.mem_cons.1 hy with hy | hy
    · cases hy
      exact h _ (.block b r) (extra_mem hx)
    · exact h j y hy

theorem fitted_parse {text : Text} (h : Wiki.start.parse env text = .ok w) : Fitted w :=
  fitted_lasting.parse (w := Wiki.start) (by intro i x hx; simp [Wiki.start] at hx) env text w h

/-! ### A table of contents in the first line -/

/-- The place is not in the first element or the table. -/
def off (o : Option Nat) : Prop := ∀ c, o = some c → c ≠ 1 ∧ c ≠ 2

structure TocFirst (w : Wiki) : Prop where
  root : ∃ n ks, w.doc.nodes[0]? = some n ∧ n.klass = .root ∧ n.children = 1 :: 2 :: ks
  div : ∃ n, w.doc.nodes[1]? = some n ∧ n.klass = .div ∧ n.children = []
  toc : ∃ n, w.doc.nodes[2]? = some n ∧ n.klass = .macro ∧ n.children = []
  current : off w.doc.current
  parents : ∀ i n, i ≠ 1 → i ≠ 2 → w.doc.nodes[i]? = some n → off n.parent
  first : w.extra 0 = none
  second : w.extra 1 = none
  third : w.extra 2 = some .toc

theorem climb_off (h : TocFirst w) (f : Node → Bool) (fuel : Nat) (s : Option Nat) (hs : off s) (i : Nat)
    (he : w.doc.climb f fuel s = .ok (some i)) : i ≠ 1 ∧ i ≠ 2 := by
  induction fuel generalizing s with
  | zero => cases s <;> simp [Editor.climb] at he
  | succ fuel ih =>
    cases s with
    | none => simp [Editor.climb] at he
    | some c =>
      unfold Editor.climb at he
      split at he
      · cases he
      · next n hn =>
        split at he
        · cases he; exact hs _ rfl
        · exact ih n.parent (h.parents c n (hs c rfl).1 (hs c rfl).2 hn) he

theorem first_length (h : TocFirst w) : 2 < w.doc.nodes.length := by
  obtain ⟨n, hn, _⟩ := h.toc
  exact (List.getElem?_eq_some_iff.1 hn).1

/-- Growing elsewhere. -/
theorem first_grown (h : TocFirst w) {c : Nat} (hc : c ≠ 1 ∧ c ≠ 2) {k : Klass} {p : Option Nat} (hp : off p) {t : Text} {o : Option Nat} (ho : off o)
    (side : List (Nat × Extra)) (hside : ∀ i < 3, (⟨w.doc, side⟩ : Wiki).extra i = w.extra i) :
    TocFirst ⟨⟨w.doc.nodes.modify c (fun n => { n with children := n.children ++ [w.doc.nodes.length] }) ++ [⟨k, p, [], t⟩], o⟩, side⟩ := by
  have hl := first_length h
  obtain ⟨n0, ks, a1, a2, a3⟩ := h.root
  obtain ⟨n1, b1, b2, b3⟩ := h.div
  obtain ⟨n2, c1, c2, c3⟩ := h.toc
  have hex : ∀ (d : Editor) i, (⟨d, side⟩ : Wiki).extra i = (⟨w.doc, side⟩ : Wiki).extra i := fun _ _ => rfl
  refine ⟨?_, ⟨n1, ?_, b2, b3⟩, ⟨n2, ?_, c2, c3⟩, ho, ?_, (hex _ _).trans ((hside 0 (by omega)).trans h.first), (hex _ _).trans ((hside 1 (by omega)).trans h.second),
    (hex _ _).trans ((hside 2 (by omega)).trans h.third)⟩
  · by_cases h0 : 0 = c
    · refine ⟨{ n0 with children := n0.children ++ [w.doc.nodes.length] }, ks ++ [w.doc.nodes.length], ?_, a2, by rw [a3]; rfl⟩
      rw [get_grown, if_pos (by omega), a1, Option.map_some, if_pos h0]
    · refine ⟨n0, ks, ?_, a2, a3⟩
      rw [get_grown, if_pos (by omega), a1, Option.map_some, if_neg h0]
  · rw [get_grown, if_pos (by omega), b1, Option.map_some, if_neg (Ne.symm hc.1)]
  · rw [get_grown, if_pos (by omega), c1, Option.map_some, if_neg (Ne.symm hc.2)]
  · intro i n h1 h2 hn
    dsimp only at hn
    rw [get_grown] at hn
    split at hn
    · obtain ⟨m, hm, rfl⟩ := Option.map_eq_some_iff.1 hn
      split <;> exact h.parents i m h1 h2 hm
    · split at hn
      · cases hn; exact hp
      · cases hn

theorem first_goto (h : TocFirst w) {o : Option Nat} (ho : off o) : TocFirst { w with doc := { w.doc with current := o } } :=
  ⟨h.root, h.div, h.toc, ho, h.parents, h.first, h.second, h.third⟩

theorem first_lasting : Lasting TocFirst where
  enter w k x h hx := by
    intro w' e
    unfold Wiki.enter at e
    split at e
    · cases e
    · next d i ha =>
      obtain ⟨c, h1, rfl, rfl⟩ := append_effect ha
      have hl := first_length h
      have ho : off (some w.doc.nodes.length) := by intro c hc; cases hc; omega
      cases e
      refine first_grown h (climb_off h _ _ _ h.current _ h1) h.current ho _ ?_
      intro i hi
      cases x with
      | none => rfl
      | some x =>
        have : ¬ w.doc.nodes.length = i := by omega
        simp [Wiki.extra, this]
  append w k d i h ha := by
    obtain ⟨c, h1, rfl, rfl⟩ := append_effect ha
    have hc := climb_off h _ _ _ h.current _ h1
    exact first_grown h hc h.current (by intro c' hc'; cases hc'; exact hc) _ fun _ _ => rfl
  toc w d i h ha := by
    obtain ⟨c, h1, rfl, rfl⟩ := append_effect ha
    have hl := first_length h
    have hc := climb_off h _ _ _ h.current _ h1
    refine first_grown h hc h.current (by intro c' hc'; cases hc'; exact hc) _ ?_
    intro i hi
    have : ¬ w.doc.nodes.length = i := by omega
    simp [Wiki.extra, this]
  leave w ks h := by
    intro w' e
    unfold Wiki.leave at e
    split at e
    · cases e
    · cases e; exact h
    · next i hi =>
      cases e
      have hc := climb_off h _ _ _ h.current _ hi
      refine first_goto h ?_
      intro c hcc
      unfold Editor.parentOf at hcc
      obtain ⟨n, h1, h2⟩ := Option.bind_eq_some_iff.1 hcc
      exact h.parents i n hc.1 hc.2 h1 c h2
  text w t h := by
    intro w' e
    unfold Wiki.text at e
    split at e
    · cases e
    · next d ha =>
      cases e
      obtain ⟨hcur, h1⟩ := text_effect ha
      obtain ⟨dn, dc⟩ := d
      dsimp only at hcur h1
      subst hcur
      rcases h1 with ⟨i, m, h2, h3, rfl⟩ | ⟨c, h2, rfl⟩
      · have hne : ∀ j n, w.doc.nodes[j]? = some n → n.klass ≠ .text → i ≠ j := by
          rintro j n hj hk rfl
          rw [h2] at hj
          cases hj
          exact hk h3
        obtain ⟨n0, ks, a1, a2, a3⟩ := h.root
        obtain ⟨n1, b1, b2, b3⟩ := h.div
        obtain ⟨n2, c1, c2, c3⟩ := h.toc
        have g0 := hne 0 n0 a1 (by rw [a2]; decide)
        have g1 := hne 1 n1 b1 (by rw [b2]; decide)
        have g2 := hne 2 n2 c1 (by rw [c2]; decide)
        refine ⟨⟨n0, ks, ?_, a2, a3⟩, ⟨n1, ?_, b2, b3⟩, ⟨n2, ?_, c2, c3⟩, h.current, ?_, h.first, h.second, h.third⟩
        · rw [List.getElem?_modify, a1]; simp [g0]
        · rw [List.getElem?_modify, b1]; simp [g1]
        · rw [List.getElem?_modify, c1]; simp [g2]
        · intro j n h1 h2 hn
          dsimp only at hn
          rw [List.getElem?_modify] at hn
          obtain ⟨m', hm, rfl⟩ := Option.map_eq_some_iff.1 hn
          split <;> exact h.parents j m' h1 h2 hm
      · exact first_grown h (h.current c h2) (by intro c' hc'; cases hc'; exact h.current _ h2) h.current _ fun _ _ => rfl
  goto w ks i h hi := first_goto h (by
    intro c hc
    cases hc
    exact climb_off h _ _ _ h.current _ hi)
  done w h := first_goto h (by intro c hc; cases hc; decide)
  block w c b r b' r' h hx := by
    have key : ∀ i, w.extra i = none ∨ w.extra i = some .toc → (⟨w.doc, (c, Extra.block b' r') :: w.side⟩ : Wiki).extra i = w.extra i := by
      intro i hi
      have : ¬ c = i := by
        rintro rfl
        rw [hx] at hi
        simp at hi
      simp [Wiki.extra, this]
    exact ⟨h.root, h.div, h.toc, h.current, h.parents, (key 0 (Or.inl h.first)).trans h.first, (key 1 (Or.inl h.second)).trans h.second,
      (key 2 (Or.inr h.third)).trans h.third⟩

/-- The document after the line with the macro. -/
def tocLine : Wiki := ⟨⟨[⟨.root, none, [1, 2], []⟩, ⟨.div, some 0, [], []⟩, ⟨.macro, some 1, [], []⟩], some 0⟩, [(2, .toc)]⟩

theorem toc_line (env : Env) : Wiki.start.line env t!"[[TableOfContent]]" = .ok tocLine := by
  rfl

theorem first_tocLine : TocFirst tocLine where
  root := ⟨_, [], rfl, rfl, rfl⟩
  div := ⟨_, rfl, rfl, rfl⟩
  toc := ⟨_, rfl, rfl, rfl⟩
  current := by intro c hc; cases hc; decide
  parents := by
    intro i n h1 h2 hn
    match i, h1, h2 with
    | 0, _, _ => cases hn; intro c hc; cases hc
    | i + 3, _, _ => simp [tocLine] at hn
  first := rfl
  second := rfl
  third := rfl

theorem first_parse (rest : Text) (h : Wiki.start.parse env (t!"[[TableOfContent]]\n" ++ rest) = .ok w) : TocFirst w := by
  have hs : splitLines [] (t!"[[TableOfContent]]\n" ++ rest) = t!"[[TableOfContent]]" :: splitLines [] rest := by
    simp [splitLines]
  unfold Wiki.parse at h
  rw [hs] at h
  simp only [Wiki.lines, toc_line, bind, Except.bind] at h
  exact first_lasting.lines first_tocLine env _ w h

end Bglib.Doc
