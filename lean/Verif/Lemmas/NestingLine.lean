import Verif.Lemmas.NestingEdit
/-
What the handlers of the wiki formatter do to the way from the current node to the root.
-/
namespace Bglib.Nesting
open Bglib Bglib.Spec Bglib.Doc

abbrev cls (l : List (Nat × Klass)) : List Klass := l.map (·.2)

/-- What is kept beside the document: no tables of contents, and blocks for elements and nothing else. -/
structure Beside (w : Wiki) : Prop where
  toc : ∀ i, (i, .toc) ∉ w.side
  block : ∀ i b r, (i, .block b r) ∈ w.side → ∃ n, w.doc.nodes[i]? = some n ∧ n.klass = .element
  element : ∀ (i : Nat) (n : Node), w.doc.nodes[i]? = some n → n.klass = .element → ∃ b r, w.extra i = some (.block b r)

structure State (w : Wiki) (l : List (Nat × Klass)) : Prop where
  doc : Stands w.doc l
  beside : Beside w

theorem State.fit {w : Wiki} {l : List (Nat × Klass)} (h : State w l) : AllFit (cls l) := h.doc.fit

/-- If it succeeds, it is between marks again. -/
def TopOk (r : Py Wiki) : Prop := ∀ w, r = .ok w → ∃ l, State w l ∧ Top (cls l)

theorem topOk_bind {a : Py Wiki} {f : Wiki → Py Wiki} (ha : TopOk a) (hf : ∀ w l, State w l → Top (cls l) → TopOk (f w)) :
    TopOk (a >>= f) := by
  cases a with
  | error e => intro w h; cases h
  | ok w =>
    obtain ⟨l, h1, h2⟩ := ha w rfl
    exact hf w l h1 h2

theorem topOk_ok {w : Wiki} {l : List (Nat × Klass)} (h1 : State w l) (h2 : Top (cls l)) : TopOk (.ok w) := by
  intro w' h
  cases h
  exact ⟨l, h1, h2⟩

/-! ### Operations -/

/-- New nodes are no elements. -/
def NoElements (e e' : Editor) : Prop :=
  ∀ (i : Nat) (n : Node), e'.nodes[i]? = some n → n.klass = .element → ∃ m, e.nodes[i]? = some m ∧ m.klass = .element

theorem beside_grows {w w' : Wiki} (h : Beside w) (g : Grows w.doc w'.doc) (hs : w'.side = w.side) (hn : NoElements w.doc w'.doc) :
    Beside w' := by
  refine ⟨by rw [hs]; exact h.toc, ?_, ?_⟩
  · intro i b r hi
    rw [hs] at hi
    obtain ⟨n, h1, h2⟩ := h.block i b r hi
    obtain ⟨n', a1, a2, _⟩ := g i n h1
    exact ⟨n', a1, a2.trans h2⟩
  · intro i n hi hk
    obtain ⟨m, h1, h2⟩ := hn i n hi hk
    obtain ⟨b, r, h3⟩ := h.element i m h1 h2
    refine ⟨b, r, ?_⟩
    unfold Wiki.extra at h3 ⊢
    rw [hs]
    exact h3

theorem append_new {e e' : Editor} {k : Klass} {i : Nat} (h : e.append k = .ok (e', i)) (hk : k ≠ .element) :
    NoElements e e' := by
  unfold Editor.append at h
  split at h
  · cases h
  · split at h
    · cases h
    · cases h
    · cases h
      intro j n hj hn
      rcases pushed_get hj with ⟨m, h1, h2, _⟩ | ⟨_, rfl⟩
      · exact ⟨m, h1, h2 ▸ hn⟩
      · exact absurd hn hk

theorem text_new {e e' : Editor} {t : Text} (h : e.appendText t = .ok e') : NoElements e e' := by
  unfold Editor.appendText at h
  split at h
  · cases h
  · have hp : ∀ (c : Nat) (p : Option Nat) (cur : Option Nat), NoElements e ⟨e.nodes.modify c (fun n => { n with children := n.children ++ [e.nodes.length] }) ++
        [⟨.text, p, [], t⟩], cur⟩ := by
      intro c p cur j n hj hn
      rcases pushed_get hj with ⟨m, h1, h2, _⟩ | ⟨_, rfl⟩
      · exact ⟨m, h1, h2 ▸ hn⟩
      · cases hn
    split at h
    · split at h
      · cases h
        intro j n hj hn
        obtain ⟨m, h1, rfl⟩ := (modify_get' _ _ _ _ _).1 hj
        refine ⟨m, h1, ?_⟩
        split at hn <;> exact hn
      · cases h
        exact hp _ _ _
    · cases h
      exact hp _ _ _

theorem enter_state {w : Wiki} {l : List (Nat × Klass)} (h : State w l) {k : Klass} {x : Option Extra} (hk : Fits k (cls l))
    (ht : k ≠ .text) (he : k ≠ .element) (hx : ∀ y, x = some y → y ≠ .toc ∧ ∀ b r, y ≠ .block b r) {w' : Wiki}
    (hw : w.enter k x = .ok w') : ∃ i, State w' ((i, k) :: l) ∧ Grows w.doc w'.doc := by
  unfold Wiki.enter at hw
  split at hw
  · cases hw
  · next d i hd =>
    cases hw
    obtain ⟨a1, a2, a3⟩ := append_stands h.doc hk ht hd
    refine ⟨_, ⟨a1, ?_⟩, a2⟩
    have hn := append_new hd he
    cases x with
    | none => exact beside_grows h.beside a2 rfl hn
    | some y =>
      obtain ⟨hy1, hy2⟩ := hx y rfl
      refine ⟨?_, ?_, ?_⟩
      · intro j hj
        rcases List.mem_cons.1 hj with hj | hj
        · cases hj; exact hy1 rfl
        · exact h.beside.toc j hj
      · intro j b r hj
        rcases List.mem_cons.1 hj with hj | hj
        · cases hj; exact absurd rfl (hy2 b r)
        · obtain ⟨n, h1, h2⟩ := h.beside.block j b r hj
          obtain ⟨n', b1, b2, _⟩ := a2 j n h1
          exact ⟨n', b1, b2.trans h2⟩
      · intro j n hj hjk
        obtain ⟨m, h1, h2⟩ := hn j n hj hjk
        obtain ⟨b, r, h3⟩ := h.beside.element j m h1 h2
        refine ⟨b, r, ?_⟩
        unfold Wiki.extra at h3 ⊢
        have hne : i ≠ j := by
          have := (List.getElem?_eq_some_iff.1 h1).1
          omega
        dsimp only
        rw [List.find?_cons_of_neg (by simpa using hne)]
        exact h3

theorem enter_plain {w : Wiki} {l : List (Nat × Klass)} (h : State w l) {k : Klass} (hk : Fits k (cls l))
    (ht : k ≠ .text) (he : k ≠ .element) {w' : Wiki} (hw : w.enter k = .ok w') : ∃ i, State w' ((i, k) :: l) ∧ Grows w.doc w'.doc :=
  enter_state h hk ht he (by simp) hw

theorem enter_block {w : Wiki} {l : List (Nat × Klass)} (h : State w l) (hk : Top (cls l)) {b : Text} {r : Bool} {w' : Wiki}
    (hw : w.enter .element (some (.block b r)) = .ok w') : ∃ i, State w' ((i, .element) :: l) := by
  unfold Wiki.enter at hw
  split at hw
  · cases hw
  · next d i hd =>
    cases hw
    obtain ⟨a1, a2, a3⟩ := append_stands h.doc (k := .element) hk (by decide) hd
    have hnew : ∀ (j : Nat) (n : Node), d.nodes[j]? = some n → n.klass = .element → j ≠ i → ∃ m, w.doc.nodes[j]? = some m ∧ m.klass = .element := by
      unfold Editor.append at hd
      split at hd
      · cases hd
      · split at hd
        · cases hd
        · cases hd
        · cases hd
          intro j n hj hn hne
          rcases pushed_get hj with ⟨m, h1, h2, _⟩ | ⟨h1, _⟩
          · exact ⟨m, h1, h2 ▸ hn⟩
          · exact absurd h1 hne
    have hi : ∃ n, d.nodes[i]? = some n ∧ n.klass = .element := by
      obtain ⟨_, n, b1, b2, _⟩ := way_suffix (a := []) a1.way rfl
      subst a3
      exact ⟨n, b1, b2⟩
    refine ⟨_, ⟨a1, ?_, ?_, ?_⟩⟩
    · intro j hj
      rcases List.mem_cons.1 hj with hj | hj
      · cases hj
      · exact h.beside.toc j hj
    · intro j b r hj
      rcases List.mem_cons.1 hj with hj | hj
      · cases hj; exact hi
      · obtain ⟨n, h1, h2⟩ := h.beside.block j b r hj
        obtain ⟨n', b1, b2, _⟩ := a2 j n h1
        exact ⟨n', b1, b2.trans h2⟩
    · intro j n hj hjk
      by_cases hij : i = j
      · subst hij
        exact ⟨b, r, by simp [Wiki.extra]⟩
      · obtain ⟨m, h1, h2⟩ := hnew j n hj hjk (Ne.symm hij)
        obtain ⟨b, r, h3⟩ := h.beside.element j m h1 h2
        refine ⟨b, r, ?_⟩
        unfold Wiki.extra at h3 ⊢
        dsimp only
        rw [List.find?_cons_of_neg (by simpa using hij)]
        exact h3

theorem move_state {w : Wiki} {l r : List (Nat × Klass)} (h : State w l) (c : Option Nat) (hw : Way w.doc c r) :
    State { w with doc := { w.doc with current := c } } r := by
  refine ⟨⟨nest_nodes h.doc.nest rfl, ?_⟩, beside_grows h.beside (grows_refl rfl) rfl (fun i n h1 h2 => ⟨n, h1, h2⟩)⟩
  exact way_grows (grows_refl (e := w.doc) (e' := { w.doc with current := c }) rfl) hw

/-- Leaving: nothing on the way is left, or the way goes on behind what is left. -/
theorem leave_state {w : Wiki} {l : List (Nat × Klass)} (h : State w l) (ks : List Klass) {w' : Wiki} (hw : w.leave ks = .ok w') :
    (w' = w ∧ ∀ x ∈ l, (ks.any fun k => x.2.isA k) = false) ∨
    ∃ a i k r, l = a ++ (i, k) :: r ∧ (ks.any fun q => k.isA q) = true ∧ (∀ x ∈ a, (ks.any fun k => x.2.isA k) = false) ∧
      State w' r ∧ w'.doc.nodes = w.doc.nodes := by
  unfold Wiki.leave at hw
  split at hw
  · cases hw
  · next hc =>
    cases hw
    exact Or.inl ⟨rfl, (not_climbed (g := fun q => ks.any fun k => q.isA k) h.doc.way hc).2⟩
  · next i hc =>
    cases hw
    obtain ⟨r, h1, h2⟩ := climbed_stands (g := fun q => ks.any fun k => q.isA k) h.doc hc
    obtain ⟨a, j, k, b1, b2, b3⟩ := after_some h1
    exact Or.inr ⟨a, j, k, r, b1, b2, b3, ⟨h2, beside_grows h.beside (grows_refl rfl) rfl (fun i n h1 h2 => ⟨n, h1, h2⟩)⟩, rfl⟩

/-- Leaving the current node. -/
theorem leave_head {w : Wiki} {l : List (Nat × Klass)} {i : Nat} {k : Klass} (h : State w ((i, k) :: l)) (ks : List Klass)
    (hk : (ks.any fun q => k.isA q) = true) {w' : Wiki} (hw : w.leave ks = .ok w') : State w' l ∧ w'.doc.nodes = w.doc.nodes := by
  rcases leave_state h ks hw with ⟨_, h1⟩ | ⟨a, j, k', r, h1, _, h3, h4, h5⟩
  · have := h1 (i, k) (by simp)
    dsimp only at this
    rw [hk] at this
    cases this
  · cases a with
    | nil => cases h1; exact ⟨h4, h5⟩
    | cons x a =>
      cases h1
      have := h3 (i, k) (by simp)
      dsimp only at this
      rw [hk] at this
      cases this

theorem text_state {w : Wiki} {l : List (Nat × Klass)} (h : State w l) (hh : HeadOk (cls l)) {t : Text} {w' : Wiki} (hw : w.text t = .ok w') :
    State w' l := by
  unfold Wiki.text at hw
  split at hw
  · cases hw
  · next d hd =>
    cases hw
    obtain ⟨a1, a2⟩ := text_stands h.doc hh hd
    exact ⟨a1, beside_grows h.beside a2 rfl (text_new hd)⟩

/-! ### Ways between marks -/

theorem base_tail {a r : List (Nat × Klass)} {i : Nat} {k : Klass} (hf : AllFit (cls (a ++ (i, k) :: r))) (hb : Base (cls (a ++ (i, k) :: r)))
    (h1 : k ≠ .root) (h2 : k ≠ .div) (h3 : k ≠ .text) : Base (cls r) := by
  have hfk : Fits k (cls r) := by
    have : AllFit (cls a ++ k :: cls r) := by simpa [cls] using hf
    exact (allFit_append this).1
  obtain ⟨_, b2, b3⟩ := hb
  have hsub : ∀ q, q ∈ cls r → q ∈ cls (a ++ (i, k) :: r) := by
    intro q hq
    simp only [cls, List.map_append, List.map_cons, List.mem_append, List.mem_cons]
    exact Or.inr (Or.inr hq)
  exact ⟨fits_div hfk h1 h2 h3, fun h => b2 (hsub _ h), fun h => b3 (hsub _ h)⟩

theorem fits_tail {a r : List (Nat × Klass)} {i : Nat} {k : Klass} (hf : AllFit (cls (a ++ (i, k) :: r))) : Fits k (cls r) := by
  have : AllFit (cls a ++ k :: cls r) := by simpa [cls] using hf
  exact (allFit_append this).1

/-- Classes after leaving which text may follow. -/
def leavable (ks : List Klass) : Bool :=
  [Klass.root, .div, .list none, .itemize, .tableCell, .tableHeader, .text].all fun k => !(ks.any fun q => k.isA q)

theorem leavable_not {ks : List Klass} (h : leavable ks = true) {k : Klass} (hk : (ks.any fun q => k.isA q) = true) :
    k ≠ .root ∧ k ≠ .div ∧ (∀ d, k ≠ .list d) ∧ k ≠ .itemize ∧ k ≠ .tableCell ∧ k ≠ .tableHeader ∧ k ≠ .text := by
  have key : ∀ q ∈ [Klass.root, .div, .list none, .itemize, .tableCell, .tableHeader, .text], k ≠ q := by
    intro q hq he
    have := List.all_eq_true.1 h q hq
    rw [← he, hk] at this
    cases this
  refine ⟨key _ (by simp), key _ (by simp), ?_, key _ (by simp), key _ (by simp), key _ (by simp), key _ (by simp)⟩
  rintro d rfl
  have := List.all_eq_true.1 h (.list none) (by simp)
  rw [show (ks.any fun q => (Klass.list none).isA q) = (ks.any fun q => (Klass.list d).isA q) from rfl, hk] at this
  cases this

theorem fits_headOk {k : Klass} {l : List Klass} (h : Fits k l) (h1 : k ≠ .root) (h2 : k ≠ .div) (h3 : ∀ d, k ≠ .list d) (h4 : k ≠ .itemize)
    (h5 : k ≠ .tableCell) (h6 : k ≠ .tableHeader) : HeadOk l := by
  cases k <;> first
    | exact absurd rfl h1
    | exact absurd rfl h2
    | exact absurd rfl (h3 _)
    | exact absurd rfl h4
    | exact absurd rfl h5
    | exact absurd rfl h6
    | exact h.1
    | exact h.1.1
    | exact h.elim
    | exact h
    | (obtain ⟨⟨r, h⟩, _⟩ := h; rw [h]; rfl)

theorem top_tail {a r : List (Nat × Klass)} {i : Nat} {k : Klass} (hf : AllFit (cls (a ++ (i, k) :: r))) (hb : Base (cls (a ++ (i, k) :: r)))
    {ks : List Klass} (h : leavable ks = true) (hk : (ks.any fun q => k.isA q) = true) : Top (cls r) := by
  obtain ⟨h1, h2, h3, h4, h5, h6, h7⟩ := leavable_not h hk
  exact ⟨fits_headOk (fits_tail hf) h1 h2 h3 h4 h5 h6, base_tail hf hb h1 h2 h7⟩

theorem leave_top {w : Wiki} {l : List (Nat × Klass)} (h : State w l) (ht : Top (cls l)) (ks : List Klass) (hks : leavable ks = true) :
    TopOk (w.leave ks) := by
  intro w' hw
  rcases leave_state h ks hw with ⟨rfl, _⟩ | ⟨a, i, k, r, rfl, h2, _, h4, _⟩
  · exact ⟨l, h, ht⟩
  · exact ⟨r, h4, top_tail h.fit ht.2 hks h2⟩

theorem text_top {w : Wiki} {l : List (Nat × Klass)} (h : State w l) (ht : Top (cls l)) (t : Text) : TopOk (w.text t) :=
  fun _ hw => ⟨l, text_state h ht.1 hw, ht⟩

/-- Classes that stand between marks. -/
def enterable : Klass → Bool
  | .anchor | .tableHeader | .text | .element => false
  | k => usual k

theorem top_cons {l : List (Nat × Klass)} {i : Nat} {k : Klass} (ht : Base (cls l)) (hk : enterable k = true) : Top (cls ((i, k) :: l)) := by
  have hu : usual k = true := by
    cases k <;> first
      | rfl
      | exact absurd hk Bool.false_ne_true
  obtain ⟨b1, b2, b3⟩ := ht
  refine ⟨hu, List.mem_cons_of_mem _ b1, ?_, ?_⟩
  · intro h
    rcases List.mem_cons.1 h with h | h
    · have h' : Klass.anchor = k := h
      rw [← h'] at hk
      cases hk
    · exact b2 h
  · intro h
    rcases List.mem_cons.1 h with h | h
    · have h' : Klass.tableHeader = k := h
      rw [← h'] at hk
      cases hk
    · exact b3 h

theorem enterable_not {k : Klass} (h : enterable k = true) : k ≠ .text ∧ k ≠ .element := by
  constructor <;> (rintro rfl; cases h)

theorem enter_top {w : Wiki} {l : List (Nat × Klass)} (h : State w l) (hb : Base (cls l)) (k : Klass) (hk : enterable k = true) (hf : Fits k (cls l)) :
    TopOk (w.enter k) := by
  intro w' hw
  obtain ⟨i, h1, _⟩ := enter_plain h hf (enterable_not hk).1 (enterable_not hk).2 hw
  exact ⟨_, h1, top_cons hb hk⟩

/-- `ancestor` -/
theorem ancestor_state {w : Wiki} {l : List (Nat × Klass)} (h : State w l) (ks : List Klass) (r : Option Nat) (hr : w.ancestor ks = .ok r) :
    (r = none ∧ ∀ x ∈ l, (ks.any fun k => x.2.isA k) = false) ∨
    ∃ a i k r', r = some i ∧ l = a ++ (i, k) :: r' ∧ (ks.any fun q => k.isA q) = true := by
  unfold Wiki.ancestor at hr
  have := climb_way h.doc.way (fun q => ks.any fun k => q.isA k) _ _ hr
  cases hf : l.find? fun x => ks.any fun k => x.2.isA k with
  | none =>
    rw [hf] at this
    exact Or.inl ⟨this, (find_none (g := fun q => ks.any fun k => q.isA k) hf).2⟩
  | some x =>
    rw [hf] at this
    obtain ⟨a, r', h1, h2, _⟩ := find_split (g := fun q => ks.any fun k => q.isA k) hf
    exact Or.inr ⟨a, x.1, x.2, r', this, h1, h2⟩

theorem one_any {q k : Klass} : ([k].any fun k => q.isA k) = q.isA k := by simp

theorem startIfNone_state {w : Wiki} {l : List (Nat × Klass)} (h : State w l) (k : Klass) (hk : enterable k = true) {w' : Wiki}
    (hf : (∀ x ∈ l, x.2.isA k = false) → Fits k (cls l)) (hw : w.startIfNone k = .ok w') :
    (w' = w ∧ ∃ x ∈ l, x.2.isA k = true) ∨ ((∀ x ∈ l, x.2.isA k = false) ∧ ∃ i, State w' ((i, k) :: l)) := by
  unfold Wiki.startIfNone at hw
  simp only [bind, Except.bind] at hw
  split at hw
  · cases hw
  · next r hr =>
    rcases ancestor_state h [k] r hr with ⟨rfl, h2⟩ | ⟨a, i, q, r', rfl, h2, h3⟩
    · have h2' : ∀ x ∈ l, x.2.isA k = false := fun x hx => by rw [← one_any]; exact h2 x hx
      obtain ⟨i, h3, _⟩ := enter_plain h (hf h2') (enterable_not hk).1 (enterable_not hk).2 hw
      exact Or.inr ⟨h2', i, h3⟩
    · cases hw
      refine Or.inl ⟨rfl, (i, q), ?_, ?_⟩
      · rw [h2]; simp
      · rw [← one_any]; exact h3

theorem startIfNone_top {w : Wiki} {l : List (Nat × Klass)} (h : State w l) (ht : Top (cls l)) (k : Klass) (hk : enterable k = true)
    (hf : (∀ x ∈ l, x.2.isA k = false) → Fits k (cls l)) : TopOk (w.startIfNone k) := by
  intro w' hw
  rcases startIfNone_state h k hk hf hw with ⟨rfl, _⟩ | ⟨_, i, h1⟩
  · exact ⟨l, h, ht⟩
  · exact ⟨_, h1, top_cons ht.2 hk⟩

theorem startOrEnd_top {w : Wiki} {l : List (Nat × Klass)} (h : State w l) (ht : Top (cls l)) (k : Klass) (hk : enterable k = true)
    (hl : leavable [k] = true) (hf : Top (cls l) → Fits k (cls l)) : TopOk (w.startOrEnd k) := by
  intro w' hw
  unfold Wiki.startOrEnd at hw
  simp only [bind, Except.bind] at hw
  split at hw
  · cases hw
  · next r hr =>
    cases r with
    | none => exact enter_top h ht.2 k hk (hf ht) w' hw
    | some i => exact leave_top h ht [k] hl w' hw

theorem boldItalic_top {w : Wiki} {l : List (Nat × Klass)} (h : State w l) (ht : Top (cls l)) : TopOk w.boldItalic := by
  intro w' hw
  unfold Wiki.boldItalic at hw
  simp only [bind, Except.bind] at hw
  split at hw
  · cases hw
  · next r hr =>
    cases r with
    | none =>
      exact topOk_bind (enter_top h ht.2 .bold rfl ht) (fun w1 l1 h1 t1 => enter_top h1 t1.2 .italic rfl t1) w' hw
    | some i =>
      exact topOk_bind (leave_top h ht [.bold] (by decide)) (fun w1 l1 h1 t1 => leave_top h1 t1 [.italic] (by decide)) w' hw

/-! ### Links -/

theorem usual_head {l : List (Nat × Klass)} {i : Nat} {k : Klass} (h : usual k = true) : HeadOk (cls ((i, k) :: l)) := h

theorem link_top {w : Wiki} {l : List (Nat × Klass)} (h : State w l) (ht : Top (cls l)) (attrs : List (Text × Text)) (t : Text) :
    TopOk (w.link attrs t) := by
  intro w' hw
  unfold Wiki.link at hw
  simp only [bind, Except.bind] at hw
  split at hw
  · cases hw
  · next w1 h1 =>
    obtain ⟨i, a1, _⟩ := enter_state h (k := .anchor) ht (by decide) (by decide) (by rintro y ⟨⟩; exact ⟨by simp, by simp⟩) h1
    split at hw
    · cases hw
    · next w2 h2 =>
      have a2 := text_state a1 (usual_head rfl) h2
      exact ⟨l, (leave_head a2 [.anchor] (by decide) hw).1, ht⟩

theorem extLink_top {w : Wiki} {l : List (Nat × Klass)} (h : State w l) (ht : Top (cls l)) (attrs : List (Text × Text)) (t : Text) :
    TopOk (w.extLink attrs t) := by
  intro w' hw
  unfold Wiki.extLink at hw
  simp only [bind, Except.bind] at hw
  split at hw
  · cases hw
  · next w1 h1 =>
    obtain ⟨i, a1, _⟩ := enter_state h (k := .anchor) ht (by decide) (by decide) (by rintro y ⟨⟩; exact ⟨by simp, by simp⟩) h1
    split at hw
    · cases hw
    · next w2 h2 =>
      obtain ⟨j, a2, _⟩ := enter_plain a1 (k := .span) ⟨rfl, List.mem_cons_of_mem _ ht.2.1⟩ (by decide) (by decide) h2
      split at hw
      · cases hw
      · next w3 h3 =>
        have a3 := text_state a2 (usual_head rfl) h3
        split at hw
        · cases hw
        · next w4 h4 =>
          have a4 := (leave_head a3 [.span] (by decide) h4).1
          exact ⟨l, (leave_head a4 [.anchor] (by decide) hw).1, ht⟩

/-! ### Tables -/

theorem isA_table (k : Klass) (h : k.isA .table = true) : k = .table := by
  cases k <;> first
    | rfl
    | exact absurd h Bool.false_ne_true

theorem isA_row (k : Klass) (h : k.isA .tableRow = true) : k = .tableRow := by
  cases k <;> first
    | rfl
    | exact absurd h Bool.false_ne_true

theorem isA_cell (k : Klass) (h : k.isA .tableCell = true) : k = .tableCell := by
  cases k <;> first
    | rfl
    | exact absurd h Bool.false_ne_true

/-- Below a row there are cells. -/
theorem below_row {k : Klass} {r : List Klass} (h : Fits k (.tableRow :: r)) : k = .tableCell ∨ k = .tableHeader := by
  have hno : ¬ HeadOk (.tableRow :: r) := fun h => Bool.false_ne_true h
  have hlist : ¬ ListHead (.tableRow :: r) := by rintro ⟨d, r', h⟩; cases h
  have hstar : ¬ StarHead (.tableRow :: r) := by rintro ⟨r', h⟩; cases h
  cases k <;> first
    | exact Or.inl rfl
    | exact Or.inr rfl
    | exact absurd h.1 hno
    | exact absurd h.1.1 hno
    | exact absurd h hno
    | exact absurd h.2 hlist
    | exact absurd (h.2.resolve_left hno) hstar
    | exact absurd h (by simp [Fits])

theorem row_cell {L : List Klass} (hf : AllFit L) (ht : Top L) (hr : .tableRow ∈ L) : .tableCell ∈ L := by
  have key : ∀ (L : List Klass), AllFit L → .tableRow ∈ L → (∃ r, L = .tableRow :: r) ∨ .tableCell ∈ L ∨ .tableHeader ∈ L := by
    intro L
    induction L with
    | nil => intro _ h; cases h
    | cons x L ih =>
      intro hf h
      rcases List.mem_cons.1 h with rfl | h
      · exact Or.inl ⟨L, rfl⟩
      · rcases ih hf.2 h with ⟨r, rfl⟩ | h | h
        · rcases below_row hf.1 with rfl | rfl
          · exact Or.inr (Or.inl (by simp))
          · exact Or.inr (Or.inr (by simp))
        · exact Or.inr (Or.inl (by simp [h]))
        · exact Or.inr (Or.inr (by simp [h]))
  rcases key L hf hr with ⟨r, rfl⟩ | h | h
  · exact absurd ht.1 Bool.false_ne_true
  · exact h
  · exact absurd h ht.2.2.2

theorem cell_row {L : List Klass} (hf : AllFit L) (h : .tableCell ∈ L) : .tableRow ∈ L := by
  obtain ⟨a, r, rfl⟩ := List.append_of_mem h
  obtain ⟨_, r', hr⟩ := (allFit_append hf).1
  rw [hr]
  simp

theorem tableCell_top {w : Wiki} {l : List (Nat × Klass)} (h : State w l) (ht : Top (cls l)) : TopOk w.tableCell := by
  intro w' hw
  unfold Wiki.tableCell at hw
  simp only [bind, Except.bind] at hw
  split at hw
  · cases hw
  · next w1 h1 =>
    -- there is a table
    have h2 : ∃ l1, State w1 l1 ∧ Top (cls l1) ∧ .table ∈ cls l1 := by
      rcases startIfNone_state h .table rfl (fun _ => ht) h1 with ⟨rfl, x, hx, hxa⟩ | ⟨_, i, h2⟩
      · exact ⟨l, h, ht, List.mem_map.2 ⟨x, hx, isA_table _ hxa⟩⟩
      · exact ⟨_, h2, top_cons ht.2 rfl, by simp [cls]⟩
    obtain ⟨l1, s1, t1, m1⟩ := h2
    split at hw
    · cases hw
    · next w2 h2 =>
      split at hw
      · cases hw
      · next w3 h3 =>
        suffices hs : ∃ l3, State w3 l3 ∧ Base (cls l3) ∧ RowHead (cls l3) by
          obtain ⟨l3, s3, b3, r3⟩ := hs
          exact enter_top s3 b3 .tableCell rfl ⟨b3, r3⟩ w' hw
        have hrow : (w2 = w1 ∧ ∃ x ∈ l1, x.2.isA .tableRow = true) ∨ ((∀ x ∈ l1, x.2.isA .tableRow = false) ∧ ∃ i, State w2 ((i, .tableRow) :: l1)) := by
          unfold Wiki.startIfNone at h2
          simp only [bind, Except.bind] at h2
          split at h2
          · cases h2
          · next r hr =>
            rcases ancestor_state s1 [.tableRow] r hr with ⟨rfl, b2⟩ | ⟨a, i, q, r', rfl, b2, b3⟩
            · have b2' : ∀ x ∈ l1, x.2.isA .tableRow = false := fun x hx => by rw [← one_any]; exact b2 x hx
              obtain ⟨i, b3, _⟩ := enter_plain s1 (k := .tableRow) ⟨t1, m1⟩ (by decide) (by decide) h2
              exact Or.inr ⟨b2', i, b3⟩
            · cases h2
              refine Or.inl ⟨rfl, (i, q), ?_, ?_⟩
              · rw [b2]; simp
              · rw [← one_any]; exact b3
        rcases hrow with ⟨rfl, x, hx, hxa⟩ | ⟨hno, i, s2⟩
        · have hcell : .tableCell ∈ cls l1 := row_cell s1.fit t1 (List.mem_map.2 ⟨x, hx, isA_row _ hxa⟩)
          obtain ⟨y, hy, hyc⟩ := List.mem_map.1 hcell
          rcases leave_state s1 [.tableCell] h3 with ⟨_, b2⟩ | ⟨a, j, k, r, rfl, b2, _, b4, _⟩
          · have := b2 y hy
            rw [hyc] at this
            cases this
          · rw [one_any] at b2
            have := isA_cell k b2
            subst this
            obtain ⟨c1, c2⟩ := fits_tail s1.fit
            exact ⟨r, b4, c1, c2⟩
        · have hb : Base (cls ((i, Klass.tableRow) :: l1)) :=
            ⟨List.mem_cons_of_mem _ t1.2.1, by simpa [cls] using t1.2.2.1, by simpa [cls] using t1.2.2.2⟩
          rcases leave_state s2 [.tableCell] h3 with ⟨rfl, _⟩ | ⟨a, j, k, r, b1, b2, _, b4, _⟩
          · exact ⟨_, s2, hb, cls l1, rfl⟩
          · exfalso
            rw [one_any] at b2
            have := isA_cell k b2
            subst this
            have hm : Klass.tableCell ∈ cls l1 := by
              have : Klass.tableCell ∈ cls ((i, Klass.tableRow) :: l1) := by rw [b1]; simp [cls]
              rcases List.mem_cons.1 this with h | h
              · cases h
              · exact h
            obtain ⟨y, hy, hyc⟩ := List.mem_map.1 (cell_row s1.fit hm)
            have := hno y hy
            rw [hyc] at this
            cases this

end Bglib.Nesting
