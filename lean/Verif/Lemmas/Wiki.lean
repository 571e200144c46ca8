import Verif.Spec.Wiki
import Verif.Lemmas.Doctree
import Verif.Lemmas.Pattern
/-
Invariants of the wiki formatter.
-/
namespace Bglib
open Spec Doc

/-! ### Safe text -/

theorem safe_append {a b : Text} (ha : SafeText a) (hb : SafeText b) : SafeText (a ++ b) := by
  induction ha with
  | nil => exact hb
  | lt r _ ih => rw [List.append_assoc]; exact .lt _ ih
  | gt r _ ih => rw [List.append_assoc]; exact .gt _ ih
  | amp r _ ih => rw [List.append_assoc]; exact .amp _ ih
  | plain c r h1 h2 h3 _ ih => exact .plain c _ h1 h2 h3 ih

theorem safe_plain (t : Text) (h : ∀ c ∈ t, c ≠ '<' ∧ c ≠ '>' ∧ c ≠ '&') : SafeText t := by
  induction t with
  | nil => exact .nil
  | cons c t ih =>
    obtain ⟨h1, h2, h3⟩ := h c (by simp)
    exact .plain c t h1 h2 h3 (ih fun d hd => h d (by simp [hd]))

/-- Text without the three characters, decided. -/
def plainB (t : Text) : Bool := t.all fun c => c != '<' && c != '>' && c != '&'

theorem safe_plainB (t : Text) (h : plainB t = true) : SafeText t := by
  refine safe_plain t fun c hc => ?_
  have := List.all_eq_true.1 h c hc
  simp only [Bool.and_eq_true, bne_iff_ne, ne_eq] at this
  exact ⟨this.1.1, this.1.2, this.2⟩

theorem safe_escape (s : Text) : SafeText (escape s) := by
  induction s with
  | nil => exact .nil
  | cons c s ih =>
    show SafeText (escapeChar c ++ escape s)
    unfold escapeChar
    split
    · exact .lt _ ih
    · split
      · exact .gt _ ih
      · split
        · exact .amp _ ih
        · exact .plain c _ ‹_› ‹_› ‹_› ih

/-! ### Classes -/

/-- A list. -/
def IsList (k : Klass) : Prop := ∃ d, k = .list d

/-- Classes that can be left without coming to stand on the root's parent or on a list. -/
def leaveFine (ks : List Klass) : Bool :=
  !(ks.any fun k => Klass.root.isA k) && !(ks.any fun k => Klass.itemize.isA k) &&
    !(ks.any fun k => (Klass.list none).isA k)

theorem isA_list (d : Option Design) (k : Klass) : (Klass.list d).isA k = (Klass.list none).isA k := rfl

theorem accepts_macro (k : Klass) (h : k.accepts .macro = false) : k = .macro ∨ k = .div := by
  cases k
  case list d => exact absurd h (by rcases d with _ | d <;> first | decide | (cases d <;> decide))
  all_goals first
    | exact Or.inl rfl
    | exact Or.inr rfl
    | exact absurd h (by decide)

/-! ### The invariant -/

/-- What is kept beside the document fits the nodes. -/
def SideOk (S T : Prop) (k : Klass) : Extra → Prop
  | .attrs _ => k = .anchor
  | .item ok => k = .itemize ∧ (ok = false → S)
  | .block _ _ => k = .element
  | .toc => k = .macro ∧ T

/-- `S`: a list with signs is possible; `T`: a table of contents is possible; `U`: unsafe text is. -/
structure WikiInv (S T U : Prop) (w : Wiki) : Prop where
  doc : DInv w.doc
  current : ∃ c, w.doc.current = some c
  lists : ∀ (i : Nat) (n : Node), w.doc.nodes[i]? = some n → n.klass ≠ .list none
  sign : ∀ (i : Nat) (n : Node), w.doc.nodes[i]? = some n → n.klass = .list (some .sign) → S
  below : ∀ (i p : Nat) (n m : Node), w.doc.nodes[i]? = some n → n.parent = some p → w.doc.nodes[p]? = some m →
    IsList m.klass → n.klass = .itemize ∨ IsList n.klass
  items : ∀ (i : Nat) (n : Node), w.doc.nodes[i]? = some n → n.klass = .itemize →
    ∃ (p : Nat) (m : Node), n.parent = some p ∧ w.doc.nodes[p]? = some m ∧ IsList m.klass
  side : ∀ (i : Nat) (x : Extra), (i, x) ∈ w.side → ∃ n, w.doc.nodes[i]? = some n ∧ SideOk S T n.klass x
  safe : ¬ U → ∀ (i : Nat) (n : Node), w.doc.nodes[i]? = some n → SafeText n.text

/-- The current node is not a list. -/
def Free (w : Wiki) : Prop :=
  ∀ (c : Nat) (n : Node), w.doc.current = some c → w.doc.nodes[c]? = some n → ¬ IsList n.klass

variable {S T U : Prop}

theorem start_winv : WikiInv S T U Wiki.start := by
  have hone : ∀ (i : Nat) n, Wiki.start.doc.nodes[i]? = some n → n = ⟨.root, none, [], []⟩ := by
    intro i n h
    cases i with
    | zero => simp [Wiki.start, Editor.start] at h; exact h.symm
    | succ i => simp [Wiki.start, Editor.start] at h
  refine ⟨start_inv, ⟨0, rfl⟩, ?_, ?_, ?_, ?_, ?_, ?_⟩
  · intro i n h; rw [hone i n h]; simp
  · intro i n h; rw [hone i n h]; simp
  · intro i p n m h hp; rw [hone i n h] at hp; simp at hp
  · intro i n h; rw [hone i n h]; simp
  · intro i x h; simp [Wiki.start] at h
  · intro _ i n h; rw [hone i n h]; exact .nil

theorem start_free : Free Wiki.start := by
  intro c n h1 h2
  cases h1
  cases h2
  rintro ⟨d, hd⟩
  cases hd

/-! ### Operations of the editor -/

/-- The nodes after a node was added: the old ones with their classes, parents and texts, and it. -/
theorem pushed_get {l : List Node} {c : Nat} {k : Klass} {p : Option Nat} {t : Text} {i : Nat} {n : Node}
    (h : (l.modify c (fun n => { n with children := n.children ++ [l.length] }) ++ [⟨k, p, [], t⟩])[i]? = some n) :
    (∃ m, l[i]? = some m ∧ n.klass = m.klass ∧ n.parent = m.parent ∧ n.text = m.text) ∨
    (i = l.length ∧ n = ⟨k, p, [], t⟩) := by
  rcases (modify_get _ _ _ _ _ _).1 h with ⟨m, h1, rfl⟩ | h
  · exact Or.inl ⟨m, h1, by split <;> rfl, by split <;> rfl, by split <;> rfl⟩
  · exact Or.inr h

theorem pushed_old {l : List Node} {c : Nat} {k : Klass} {p : Option Nat} {t : Text} {i : Nat} {m : Node}
    (h : l[i]? = some m) :
    ∃ n, (l.modify c (fun n => { n with children := n.children ++ [l.length] }) ++ [⟨k, p, [], t⟩])[i]? = some n ∧
      n.klass = m.klass := by
  refine ⟨_, (modify_get _ _ _ _ _ _).2 (Or.inl ⟨m, h, rfl⟩), ?_⟩
  split <;> rfl

theorem pushed_new {l : List Node} {c : Nat} {k : Klass} {p : Option Nat} {t : Text} :
    (l.modify c (fun n => { n with children := n.children ++ [l.length] }) ++ [⟨k, p, [], t⟩])[l.length]? =
      some ⟨k, p, [], t⟩ := (modify_get _ _ _ _ _ _).2 (Or.inr ⟨rfl, rfl⟩)

/-- Adding a node of class `k` below `c`, with parent `p`. -/
theorem push_winv (w : Wiki) (hw : WikiInv S T U w) (c p : Nat) (k : Klass) (t : Text) (hc : c < w.doc.nodes.length)
    (hp : p < w.doc.nodes.length) (hk : k ≠ .root) (hkl : k ≠ .list none) (hks : k = .list (some .sign) → S)
    (ht : k ≠ .text → t = []) (hts : ¬ U → SafeText t)
    (ha : k = .text ∨ ∀ n, w.doc.nodes[c]? = some n → n.klass.accepts k = true)
    (hbelow : ∀ m, w.doc.nodes[p]? = some m → IsList m.klass → k = .itemize ∨ IsList k)
    (hit : k = .itemize → ∃ m, w.doc.nodes[p]? = some m ∧ IsList m.klass)
    (cur : Nat) (hcur : cur ≤ w.doc.nodes.length) (x : List (Nat × Extra))
    (hx : ∀ i y, (i, y) ∈ x → (i = w.doc.nodes.length ∧ SideOk S T k y) ∨ (i, y) ∈ w.side) :
    WikiInv S T U ⟨⟨w.doc.nodes.modify c (fun n => { n with children := n.children ++ [w.doc.nodes.length] }) ++
      [⟨k, some p, [], t⟩], some cur⟩, x⟩ := by
  refine ⟨push_inv w.doc hw.doc c hc k hk p hp t ht ha (some cur) (fun y hy => by cases hy; exact hcur),
    ⟨cur, rfl⟩, ?_, ?_, ?_, ?_, ?_, ?_⟩
  · intro i n h
    rcases pushed_get h with ⟨m, h1, h2, _⟩ | ⟨_, rfl⟩
    · rw [h2]; exact hw.lists i m h1
    · exact hkl
  · intro i n h hn
    rcases pushed_get h with ⟨m, h1, h2, _⟩ | ⟨_, rfl⟩
    · rw [h2] at hn; exact hw.sign i m h1 hn
    · exact hks hn
  · intro i q n m h hq hm hl
    rcases pushed_get hm with ⟨m', k1, k2, _⟩ | ⟨k1, rfl⟩
    · rw [k2] at hl
      rcases pushed_get h with ⟨n', h1, h2, h3, _⟩ | ⟨_, rfl⟩
      · rw [h2]; rw [h3] at hq; exact hw.below i q n' m' h1 hq k1 hl
      · simp only [Option.some.injEq] at hq
        subst hq
        exact hbelow m' k1 hl
    · exfalso
      rcases pushed_get h with ⟨n', h1, h2, h3, _⟩ | ⟨_, rfl⟩
      · have hlt := (List.getElem?_eq_some_iff.1 h1).1
        by_cases h0 : i = 0
        · subst h0
          obtain ⟨r, hr, _, hrp⟩ := hw.doc.root
          rw [h1] at hr
          cases hr
          rw [h3, hrp] at hq
          cases hq
        · obtain ⟨z, hz, hzi⟩ := hw.doc.parents i n' h1 h0
          rw [h3, hz] at hq
          cases hq
          omega
      · simp only [Option.some.injEq] at hq
        omega
  · intro i n h hi
    have hold : ∀ (q : Nat) (m : Node), w.doc.nodes[q]? = some m → IsList m.klass → ∃ m',
        (w.doc.nodes.modify c (fun n => { n with children := n.children ++ [w.doc.nodes.length] }) ++
          [⟨k, some p, [], t⟩])[q]? = some m' ∧ IsList m'.klass := by
      intro q m hq hm
      obtain ⟨m', k1, k2⟩ := pushed_old (c := c) (k := k) (p := some p) (t := t) hq
      exact ⟨m', k1, by rw [k2]; exact hm⟩
    rcases pushed_get h with ⟨n', h1, h2, h3, _⟩ | ⟨_, rfl⟩
    · rw [h2] at hi
      obtain ⟨q, m, k1, k2, k3⟩ := hw.items i n' h1 hi
      obtain ⟨m', k4, k5⟩ := hold q m k2 k3
      exact ⟨q, m', by rw [h3]; exact k1, k4, k5⟩
    · obtain ⟨m, k1, k2⟩ := hit hi
      obtain ⟨m', k4, k5⟩ := hold p m k1 k2
      exact ⟨p, m', rfl, k4, k5⟩
  · intro i y hy
    rcases hx i y hy with ⟨rfl, h⟩ | h
    · exact ⟨_, pushed_new, h⟩
    · obtain ⟨n, h1, h2⟩ := hw.side i y h
      obtain ⟨n', h3, h4⟩ := pushed_old (c := c) (k := k) (p := some p) (t := t) h1
      exact ⟨n', h3, by rw [h4]; exact h2⟩
  · intro hU i n h
    rcases pushed_get h with ⟨m, h1, _, _, h2⟩ | ⟨_, rfl⟩
    · rw [h2]; exact hw.safe hU i m h1
    · exact hts hU

/-- Only the current node changes. -/
theorem goto_winv (w : Wiki) (hw : WikiInv S T U w) (c : Nat) (hc : c < w.doc.nodes.length) :
    WikiInv S T U { w with doc := { w.doc with current := some c } } :=
  ⟨⟨hw.doc.root, hw.doc.notRoot, hw.doc.parents, hw.doc.children, hw.doc.nodup,
      fun x hx => by cases hx; exact hc, hw.doc.texts, hw.doc.accepted⟩,
    ⟨c, rfl⟩, hw.lists, hw.sign, hw.below, hw.items, hw.side, hw.safe⟩

/-- What is kept beside changes. -/
theorem side_winv (w : Wiki) (hw : WikiInv S T U w) (i : Nat) (x : Extra)
    (h : ∃ n, w.doc.nodes[i]? = some n ∧ SideOk S T n.klass x) : WikiInv S T U { w with side := (i, x) :: w.side } := by
  refine ⟨hw.doc, hw.current, hw.lists, hw.sign, hw.below, hw.items, ?_, hw.safe⟩
  intro j y hy
  rcases List.mem_cons.1 hy with hy | hy
  · cases hy; exact h
  · exact hw.side j y hy

theorem enter_ok (w : Wiki) (hw : WikiInv S T U w) (k : Klass) (x : Option Extra) (hk : k ≠ .root)
    (hkl : k ≠ .list none) (hks : k = .list (some .sign) → S) (hf : Free w ∨ k = .itemize ∨ IsList k)
    (hit : k = .itemize → ∃ d, w.doc.currentKlass = some (.list d)) (hx : ∀ y, x = some y → SideOk S T k y) :
    ∃ w', w.enter k x = .ok w' ∧ WikiInv S T U w' ∧ w'.doc.currentKlass = some k := by
  obtain ⟨cur, hcur⟩ := hw.current
  obtain ⟨c, n, h1, h2, h3, h4⟩ := append_spec w.doc hw.doc k hk cur hcur
  have hcl := hw.doc.current cur hcur
  unfold Wiki.enter
  rw [h4]
  refine ⟨_, rfl, ?_, ?_⟩
  · refine push_winv w hw c cur k [] (by omega) hcl hk hkl hks (fun _ => rfl) (fun _ => .nil)
      (Or.inr fun n' hn' => by rw [h2] at hn'; cases hn'; exact h3) ?_ ?_ _ (by omega) _ ?_
    · intro m hm hl
      rcases hf with hf | hf
      · exact absurd hl (hf cur m hcur hm)
      · exact hf
    · intro hki
      obtain ⟨d, hd⟩ := hit hki
      have hg := List.getElem?_eq_getElem hcl
      simp only [Editor.currentKlass, hcur, Option.bind_some, hg, Option.map_some, Option.some.injEq] at hd
      exact ⟨_, hg, d, hd⟩
    · intro i y hy
      cases x with
      | none => exact Or.inr hy
      | some x =>
        rcases List.mem_cons.1 hy with hy | hy
        · cases hy; exact Or.inl ⟨rfl, hx _ rfl⟩
        · exact Or.inr hy
  · simp only [Editor.currentKlass, Option.bind_some, pushed_new, Option.map_some]

theorem free_klass (w : Wiki) (k : Klass) (h : w.doc.currentKlass = some k) (hk : ¬ IsList k) : Free w := by
  intro c n h1 h2
  simp only [Editor.currentKlass, h1, Option.bind_some, h2, Option.map_some, Option.some.injEq] at h
  rw [h]
  exact hk

theorem not_list {k : Klass} (h : ∀ d, k ≠ .list d) : ¬ IsList k := fun ⟨d, hd⟩ => h d hd

/-- Where climbing ends: at its start or at the parent of a node that did not do. -/
theorem climb_parent (e : Editor) (f : Node → Bool) (fuel : Nat) (s i : Nat)
    (h : e.climb f fuel (some s) = .ok (some i)) :
    i = s ∨ ∃ (j : Nat) (m : Node), e.nodes[j]? = some m ∧ m.parent = some i ∧ f m = false := by
  induction fuel generalizing s with
  | zero => simp [Editor.climb] at h
  | succ fuel ih =>
    unfold Editor.climb at h
    split at h
    · simp at h
    · next n hn =>
      split at h
      · simp at h; exact Or.inl h.symm
      · next hf =>
        cases hp : n.parent with
        | none => rw [hp] at h; cases fuel <;> simp [Editor.climb] at h
        | some p =>
          rw [hp] at h
          rcases ih p h with rfl | h
          · exact Or.inr ⟨s, n, hn, hp, by simpa using hf⟩
          · exact Or.inr h

theorem ancestor_ok (w : Wiki) (hw : WikiInv S T U w) (ks : List Klass) :
    w.ancestor ks = .ok none ∨ ∃ i n, w.ancestor ks = .ok (some i) ∧ w.doc.nodes[i]? = some n ∧
      (ks.any fun k => n.klass.isA k) = true := by
  unfold Wiki.ancestor
  rcases climb_spec w.doc hw.doc (fun n => ks.any fun k => n.klass.isA k) (w.doc.nodes.length + 1) w.doc.current
    (fun c hc => by have := hw.doc.current c hc; omega) with h | ⟨i, n, h1, h2, h3, _⟩
  · exact Or.inl h
  · exact Or.inr ⟨i, n, h1, h2, h3⟩

/-- Leaving, if that is not leaving the root. -/
theorem leave_ok (w : Wiki) (hw : WikiInv S T U w) (ks : List Klass) (hr : (ks.any fun k => Klass.root.isA k) = false) :
    ∃ w', w.leave ks = .ok w' ∧ WikiInv S T U w' ∧
      (w' = w ∨ ∃ (i p : Nat) (n : Node), w.doc.nodes[i]? = some n ∧ (ks.any fun k => n.klass.isA k) = true ∧
        n.parent = some p ∧ w' = { w with doc := { w.doc with current := some p } }) := by
  unfold Wiki.leave
  rcases climb_spec w.doc hw.doc (fun n => ks.any fun k => n.klass.isA k) (w.doc.nodes.length + 1) w.doc.current
    (fun c hc => by have := hw.doc.current c hc; omega) with h | ⟨i, n, h1, h2, h3, _⟩
  · rw [h]; exact ⟨w, rfl, hw, Or.inl rfl⟩
  · rw [h1]
    have hil := (List.getElem?_eq_some_iff.1 h2).1
    have h0 : i ≠ 0 := by
      rintro rfl
      obtain ⟨r, hr1, hr2, _⟩ := hw.doc.root
      rw [h2] at hr1
      cases hr1
      rw [hr2, hr] at h3
      cases h3
    obtain ⟨p, hp, hlt⟩ := hw.doc.parents i n h2 h0
    have hpar : w.doc.parentOf i = some p := by simp [Editor.parentOf, h2, hp]
    dsimp only
    rw [hpar]
    exact ⟨_, rfl, goto_winv w hw p (by omega), Or.inr ⟨i, p, n, h2, h3, hp, rfl⟩⟩

theorem leave_free (w : Wiki) (hw : WikiInv S T U w) (hf : Free w) (ks : List Klass) (h : leaveFine ks = true) :
    ∃ w', w.leave ks = .ok w' ∧ WikiInv S T U w' ∧ Free w' := by
  simp only [leaveFine, Bool.and_eq_true, Bool.not_eq_true'] at h
  obtain ⟨w', h1, h2, h3⟩ := leave_ok w hw ks h.1.1
  refine ⟨w', h1, h2, ?_⟩
  rcases h3 with rfl | ⟨i, p, n, k1, k2, k3, rfl⟩
  · exact hf
  · intro c m hc hm hl
    cases hc
    rcases hw.below i p n m k1 k3 hm hl with hk | ⟨d, hk⟩
    · rw [hk, h.1.2] at k2; cases k2
    · rw [hk] at k2
      rw [show (ks.any fun k => (Klass.list d).isA k) = (ks.any fun k => (Klass.list none).isA k) from rfl, h.2] at k2
      cases k2

theorem text_ok (w : Wiki) (hw : WikiInv S T U w) (hf : Free w) (t : Text) (ht : ¬ U → SafeText t) :
    ∃ w', w.text t = .ok w' ∧ WikiInv S T U w' ∧ Free w' := by
  obtain ⟨c, hc⟩ := hw.current
  have hcl := hw.doc.current c hc
  have hg := List.getElem?_eq_getElem hcl
  have hpush := push_winv w hw c c .text t hcl hcl (by decide) (by decide) (fun h => by cases h) (fun h => absurd rfl h)
    ht (Or.inl rfl) (fun m hm hl => absurd hl (hf c m hc hm)) (fun h => by cases h) c (by omega) w.side (fun i y h => Or.inr h)
  have hpf : Free ⟨⟨w.doc.nodes.modify c (fun n => { n with children := n.children ++ [w.doc.nodes.length] }) ++
      [⟨.text, some c, [], t⟩], some c⟩, w.side⟩ := by
    intro c' n hc' hn hl
    cases hc'
    rcases pushed_get hn with ⟨m, h1, h2, _⟩ | ⟨_, rfl⟩
    · rw [h2] at hl; exact hf c m hc h1 hl
    · obtain ⟨d, hd⟩ := hl; cases hd
  have key : w.text t = .ok ⟨⟨w.doc.nodes.modify c (fun n => { n with children := n.children ++ [w.doc.nodes.length] }) ++
        [⟨.text, some c, [], t⟩], some c⟩, w.side⟩ ∨
      ∃ i m, w.doc.nodes[i]? = some m ∧ m.klass = .text ∧ w.text t =
        .ok { w with doc := ⟨w.doc.nodes.modify i fun m => { m with text := m.text ++ t }, some c⟩ } := by
    unfold Wiki.text Editor.appendText
    rw [hc, Option.bind_some, hg]
    simp only [Option.map_some]
    cases hl : w.doc.nodes[c].children.getLast? with
    | none => exact Or.inl rfl
    | some j =>
      have hjl := (hw.doc.children c _ hg j (List.mem_of_getLast? hl)).2
      rw [Option.bind_some, List.getElem?_eq_getElem hjl]
      simp only [Option.map_some]
      by_cases hk : w.doc.nodes[j].klass = .text
      · right
        refine ⟨j, _, List.getElem?_eq_getElem hjl, hk, ?_⟩
        rw [if_pos hk]
      · left
        rw [if_neg hk]
  rcases key with h | ⟨i, m, h1, h2, h3⟩
  · exact ⟨_, h, hpush, hpf⟩
  · refine ⟨_, h3, ?_, ?_⟩
    · refine ⟨modify_inv w.doc hw.doc i (fun m => { m with text := m.text ++ t }) (fun _ => rfl) (fun _ => rfl)
        (fun _ => List.Sublist.refl _) (fun n hn hnt => by rw [h1] at hn; cases hn; exact absurd h2 hnt) _
        (fun x hx => by cases hx; exact hcl), ⟨c, rfl⟩, ?_, ?_, ?_, ?_, ?_, ?_⟩
      · intro j n hn
        obtain ⟨n', k1, rfl⟩ := (modify_get' _ _ _ _ _).1 hn
        have := hw.lists j n' k1
        split <;> exact this
      · intro j n hn hs
        obtain ⟨n', k1, rfl⟩ := (modify_get' _ _ _ _ _).1 hn
        refine hw.sign j n' k1 ?_
        split at hs <;> exact hs
      · intro j p n n2 hn hp hn2 hl
        obtain ⟨n', k1, rfl⟩ := (modify_get' _ _ _ _ _).1 hn
        obtain ⟨n2', k2, rfl⟩ := (modify_get' _ _ _ _ _).1 hn2
        have e1 : (if j = i then { n' with text := n'.text ++ t } else n').klass = n'.klass := by split <;> rfl
        have e2 : (if p = i then { n2' with text := n2'.text ++ t } else n2').klass = n2'.klass := by split <;> rfl
        have e3 : (if j = i then { n' with text := n'.text ++ t } else n').parent = n'.parent := by split <;> rfl
        rw [e1]
        rw [e2] at hl
        rw [e3] at hp
        exact hw.below j p n' n2' k1 hp k2 hl
      · intro j n hn hk
        obtain ⟨n', k1, rfl⟩ := (modify_get' _ _ _ _ _).1 hn
        have e1 : (if j = i then { n' with text := n'.text ++ t } else n').klass = n'.klass := by split <;> rfl
        have e3 : (if j = i then { n' with text := n'.text ++ t } else n').parent = n'.parent := by split <;> rfl
        rw [e1] at hk
        obtain ⟨p, m', k2, k3, k4⟩ := hw.items j n' k1 hk
        refine ⟨p, _, by rw [e3]; exact k2, (modify_get' _ _ _ _ _).2 ⟨m', k3, rfl⟩, ?_⟩
        split <;> exact k4
      · intro j x hx
        obtain ⟨n, k1, k2⟩ := hw.side j x hx
        refine ⟨_, (modify_get' _ _ _ _ _).2 ⟨n, k1, rfl⟩, ?_⟩
        split <;> exact k2
      · intro hU j n hn
        obtain ⟨n', k1, rfl⟩ := (modify_get' _ _ _ _ _).1 hn
        have := hw.safe hU j n' k1
        split
        · exact safe_append this (ht hU)
        · exact this
    · intro c' n hc' hn hl
      cases hc'
      obtain ⟨n', k1, rfl⟩ := (modify_get' _ _ _ _ _).1 hn
      refine hf c n' hc k1 ?_
      split at hl <;> exact hl

theorem countNesting_ok (w : Wiki) (hw : WikiInv S T U w) (k : Klass) (fuel : Nat) (s : Option Nat)
    (hs : ∀ c, s = some c → c < w.doc.nodes.length ∧ c < fuel) : ∃ n, w.countNesting k fuel s = .ok n := by
  induction fuel generalizing s with
  | zero =>
    cases s with
    | none => exact ⟨0, rfl⟩
    | some c => have := hs c rfl; omega
  | succ fuel ih =>
    cases s with
    | none => exact ⟨0, rfl⟩
    | some c =>
      obtain ⟨h1, h2⟩ := hs c rfl
      have hg := List.getElem?_eq_getElem h1
      unfold Wiki.countNesting
      rw [hg]
      dsimp only
      obtain ⟨m, hm⟩ := ih w.doc.nodes[c].parent (fun p hp => by
        by_cases h0 : c = 0
        · subst h0
          obtain ⟨r, hr, _, hrp⟩ := hw.doc.root
          rw [hg] at hr
          cases hr
          rw [hrp] at hp
          cases hp
        · obtain ⟨q, hq, hlt⟩ := hw.doc.parents c _ hg h0
          rw [hp] at hq
          cases hq
          omega)
      rw [hm]
      exact ⟨_, rfl⟩

theorem nesting_ok (w : Wiki) (hw : WikiInv S T U w) (k : Klass) : ∃ n, w.nesting k = .ok n :=
  countNesting_ok w hw k _ _ fun c hc => by have := hw.doc.current c hc; omega

end Bglib
