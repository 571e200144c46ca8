import Verif.Lemmas.Nesting
/-
What the operations of the editor do to the way from the current node to the root.
-/
namespace Bglib.Nesting
open Bglib Bglib.Spec Bglib.Doc

/-- All nodes fit where they are. -/
structure Nest (e : Editor) : Prop where
  root : ∃ n, e.nodes[0]? = some n ∧ n.klass = .root ∧ n.parent = none
  ways : ∀ (i : Nat) (n : Node), e.nodes[i]? = some n → ∃ l, Way e n.parent l ∧ Fits n.klass (l.map (·.2))
  lt : ∀ (i : Nat) (n : Node), e.nodes[i]? = some n → ∀ j ∈ n.children, j < e.nodes.length
  kids : ∀ (i j : Nat) (n m : Node), e.nodes[i]? = some n → e.nodes[j]? = some m → j ∈ n.children →
    fine n.klass m.klass = true ∧ ∃ a r, Way e m.parent (a ++ (i, n.klass) :: r)

theorem nest_nodes {e e' : Editor} (h : Nest e) (hn : e'.nodes = e.nodes) : Nest e' := by
  have g : Grows e e' := grows_refl hn
  refine ⟨by rw [hn]; exact h.root, ?_, by rw [hn]; exact h.lt, ?_⟩
  · intro i n hi
    rw [hn] at hi
    obtain ⟨l, h1, h2⟩ := h.ways i n hi
    exact ⟨l, way_grows g h1, h2⟩
  · intro i j n m hi hj hm
    rw [hn] at hi hj
    obtain ⟨h1, a, r, h2⟩ := h.kids i j n m hi hj hm
    exact ⟨h1, a, r, way_grows g h2⟩

theorem start_nest : Nest Editor.start := by
  have hone : ∀ (i : Nat) n, Editor.start.nodes[i]? = some n → n = ⟨.root, none, [], []⟩ := by
    intro i n h
    cases i with
    | zero => simp [Editor.start] at h; exact h.symm
    | succ i => simp [Editor.start] at h
  refine ⟨⟨_, rfl, rfl, rfl⟩, ?_, ?_, ?_⟩
  · intro i n h
    rw [hone i n h]
    exact ⟨[], .none, rfl⟩
  · intro i n h
    rw [hone i n h]
    simp
  · intro i j n m h _ hj
    rw [hone i n h] at hj
    simp at hj

theorem push_nest {e : Editor} (h : Nest e) {p c : Nat} {kc k : Klass} {a r : List (Nat × Klass)} (cur : Option Nat) (t : Text)
    (hw : Way e (some p) (a ++ (c, kc) :: r)) (hf : Fits k ((a ++ (c, kc) :: r).map (·.2))) (hfine : fine kc k = true) :
    Nest ⟨e.nodes.modify c (fun n => { n with children := n.children ++ [e.nodes.length] }) ++ [⟨k, some p, [], t⟩], cur⟩ ∧
      Way ⟨e.nodes.modify c (fun n => { n with children := n.children ++ [e.nodes.length] }) ++ [⟨k, some p, [], t⟩], cur⟩
        (some e.nodes.length) ((e.nodes.length, k) :: (a ++ (c, kc) :: r)) := by
  have g : Grows e ⟨e.nodes.modify c (fun n => { n with children := n.children ++ [e.nodes.length] }) ++ [⟨k, some p, [], t⟩], cur⟩ :=
    grows_push e.nodes e.current cur c _
  obtain ⟨_, nc, hnc, hnk, _⟩ := way_suffix hw rfl
  have hclt := (List.getElem?_eq_some_iff.1 hnc).1
  refine ⟨⟨?_, ?_, ?_, ?_⟩, ?_⟩
  · obtain ⟨n, h1, h2, h3⟩ := h.root
    obtain ⟨n', a1, a2, a3⟩ := g 0 n h1
    exact ⟨n', a1, a2.trans h2, a3.trans h3⟩
  · intro i n hi
    rcases pushed_get hi with ⟨m, h1, h2, h3, _⟩ | ⟨_, rfl⟩
    · obtain ⟨l, k1, k2⟩ := h.ways i m h1
      exact ⟨l, by rw [h3]; exact way_grows g k1, by rw [h2]; exact k2⟩
    · exact ⟨_, way_grows g hw, hf⟩
  · intro i n hi j hj
    have hlen : (e.nodes.modify c (fun n => { n with children := n.children ++ [e.nodes.length] }) ++
        [(⟨k, some p, [], t⟩ : Node)]).length = e.nodes.length + 1 := by simp
    show j < (_ : List Node).length
    rw [hlen]
    rcases (modify_get _ _ _ _ _ _).1 hi with ⟨m, h1, rfl⟩ | ⟨_, rfl⟩
    · split at hj
      · rcases List.mem_append.1 hj with hj | hj
        · have := h.lt i m h1 j hj; omega
        · simp at hj; omega
      · have := h.lt i m h1 j hj; omega
    · simp at hj
  · intro i j n m hi hj hm
    rcases (modify_get _ _ _ _ _ _).1 hi with ⟨n', h1, hn⟩ | ⟨_, rfl⟩
    · have hkn : n.klass = n'.klass := by rw [hn]; split <;> rfl
      rw [hkn]
      have hold : ∀ E, Grows e E → j ∈ n'.children → fine n'.klass m.klass = true ∧ ∃ a r, Way E m.parent (a ++ (i, n'.klass) :: r) := by
        intro E g hj'
        rcases pushed_get hj with ⟨m', k1, k2, k3, _⟩ | ⟨k1, _⟩
        · obtain ⟨b1, a', r', b2⟩ := h.kids i j n' m' h1 k1 hj'
          exact ⟨by rw [k2]; exact b1, a', r', by rw [k3]; exact way_grows g b2⟩
        · have := h.lt i n' h1 j hj'
          omega
      rw [hn] at hm
      split at hm
      · next hic =>
        rcases List.mem_append.1 hm with hm | hm
        · exact hold _ g hm
        · simp at hm
          subst hm hic
          rw [pushed_new] at hj
          cases hj
          rw [hnc] at h1
          cases h1
          rw [hnk]
          exact ⟨hfine, a, r, way_grows g hw⟩
      · exact hold _ g hm
    · simp at hm
  · have hx := Way.some (e := ⟨e.nodes.modify c (fun n => { n with children := n.children ++ [e.nodes.length] }) ++
        [⟨k, some p, [], t⟩], cur⟩) e.nodes.length ⟨k, some p, [], t⟩ (a ++ (c, kc) :: r) pushed_new (way_grows g hw)
    exact hx

/-- The editor, with the way from the current node. -/
structure Stands (e : Editor) (l : List (Nat × Klass)) : Prop where
  nest : Nest e
  way : Way e e.current l

theorem Stands.fit {e : Editor} {l : List (Nat × Klass)} (h : Stands e l) : AllFit (l.map (·.2)) := allFit_of h.nest.ways h.way

theorem append_stands {e : Editor} {l : List (Nat × Klass)} (h : Stands e l) {k : Klass} (hk : Fits k (l.map (·.2))) (ht : k ≠ .text)
    {e' : Editor} {i : Nat} (he : e.append k = .ok (e', i)) :
    Stands { e' with current := some i } ((e.nodes.length, k) :: l) ∧ Grows e { e' with current := some i } ∧ i = e.nodes.length := by
  unfold Editor.append at he
  split at he
  · cases he
  · split at he
    · cases he
    · cases he
    · next c hc =>
      cases he
      have hr := climb_way h.way (fun q => q.accepts k) _ _ hc
      obtain ⟨x, hx, hxc⟩ := Option.map_eq_some_iff.1 hr.symm
      obtain ⟨a, r, h1, h2, h3, _⟩ := find_split (g := fun q => q.accepts k) hx
      obtain ⟨xi, xk⟩ := x
      dsimp only at hxc h2
      subst hxc h1
      cases hcur : e.current with
      | none =>
        have hw := h.way
        rw [hcur] at hw
        generalize hl : a ++ (xi, xk) :: r = l at hw
        cases hw
        simp at hl
      | some p =>
        have hfine : fine xk k = true := fine_of (a := a.map (·.2)) (r := r.map (·.2)) h.fit hk (by simp) h2 (by
          intro y hy
          obtain ⟨z, hz, rfl⟩ := List.mem_map.1 hy
          exact h3 z hz) ht
        have hw := h.way
        rw [hcur] at hw
        obtain ⟨b1, b2⟩ := push_nest h.nest (some e.nodes.length) [] hw hk hfine
        exact ⟨⟨b1, b2⟩, grows_push e.nodes e.current _ xi _, rfl⟩

theorem enter_stands {e : Editor} {l : List (Nat × Klass)} (h : Stands e l) {k : Klass} (hk : Fits k (l.map (·.2))) (ht : k ≠ .text)
    {e' : Editor} (he : e.enter k = .ok e') : Stands e' ((e.nodes.length, k) :: l) ∧ Grows e e' := by
  unfold Editor.enter at he
  split at he
  · cases he
  · next e1 i h1 =>
    cases he
    obtain ⟨a1, a2, a3⟩ := append_stands h hk ht h1
    exact ⟨a1, a2⟩

/-- Leaving. -/
theorem climbed_stands {e : Editor} {l : List (Nat × Klass)} (h : Stands e l) {g : Klass → Bool} {fuel : Nat} {i : Nat}
    (hc : e.climb (fun n => g n.klass) fuel e.current = .ok (some i)) :
    ∃ r, after g l = some r ∧ Stands { e with current := e.parentOf i } r := by
  have hr := climb_way h.way g _ _ hc
  obtain ⟨x, hx, hxc⟩ := Option.map_eq_some_iff.1 hr.symm
  obtain ⟨a, r, h1, h2, h3, h4⟩ := find_split hx
  obtain ⟨xi, xk⟩ := x
  dsimp only at hxc
  subst hxc h1
  obtain ⟨_, n, k1, k2, k3⟩ := way_suffix h.way rfl
  refine ⟨r, h4, nest_nodes h.nest rfl, ?_⟩
  show Way _ (e.parentOf xi) r
  rw [show e.parentOf xi = n.parent by simp [Editor.parentOf, k1]]
  exact way_grows (grows_refl (e := e) (e' := { e with current := n.parent }) rfl) k3

theorem not_climbed {e : Editor} {l : List (Nat × Klass)} (h : Way e e.current l) {g : Klass → Bool} {fuel : Nat}
    (hc : e.climb (fun n => g n.klass) fuel e.current = .ok none) : after g l = none ∧ ∀ x ∈ l, g x.2 = false := by
  have hr := climb_way h g _ _ hc
  exact find_none (Option.map_eq_none_iff.1 hr.symm)

theorem leave_stands {e : Editor} {l : List (Nat × Klass)} (h : Stands e l) {k : Klass} {e' : Editor} (he : e.leave k = .ok e') :
    Stands e' ((after (fun q => q.isA k) l).getD l) ∧ e'.nodes = e.nodes := by
  unfold Editor.leave at he
  split at he
  · cases he
  · next hc =>
    cases he
    rw [(not_climbed (g := fun q => q.isA k) h.way hc).1]
    exact ⟨h, rfl⟩
  · next i hc =>
    cases he
    obtain ⟨r, h1, h2⟩ := climbed_stands (g := fun q => q.isA k) h hc
    rw [h1]
    exact ⟨h2, rfl⟩

theorem headOk_of {l : List (Nat × Klass)} (h : HeadOk (l.map (·.2))) : ∃ i k r, l = (i, k) :: r ∧ usual k = true := by
  cases l with
  | nil => exact h.elim
  | cons x r => exact ⟨x.1, x.2, r, rfl, h⟩

theorem fine_text {k : Klass} (h : usual k = true) : fine k .text = true := by
  cases k <;> first
    | rfl
    | exact absurd h Bool.false_ne_true

theorem text_stands {e : Editor} {l : List (Nat × Klass)} (h : Stands e l) (ht : HeadOk (l.map (·.2))) {t : Text} {e' : Editor}
    (he : e.appendText t = .ok e') : Stands e' l ∧ Grows e e' := by
  obtain ⟨c, k, r, rfl, hu⟩ := headOk_of ht
  have hcur : e.current = some c := by
    have := h.way
    generalize e.current = s at this
    cases this
    rfl
  have hw := h.way
  rw [hcur] at hw
  have hpush : Stands ⟨e.nodes.modify c (fun n => { n with children := n.children ++ [e.nodes.length] }) ++ [⟨.text, some c, [], t⟩], e.current⟩
        ((c, k) :: r) ∧
      Grows e ⟨e.nodes.modify c (fun n => { n with children := n.children ++ [e.nodes.length] }) ++ [⟨.text, some c, [], t⟩], e.current⟩ := by
    have g := grows_push e.nodes e.current e.current c ⟨.text, some c, [], t⟩
    refine ⟨⟨(push_nest (a := []) (k := .text) h.nest e.current t hw ht (fine_text hu)).1, ?_⟩, g⟩
    exact way_grows (e := e) g h.way
  unfold Editor.appendText at he
  split at he
  · cases he
  · next c' n hb =>
    have hcc : c' = c := by
      rw [hcur, Option.bind_some] at hb
      obtain ⟨_, _, h2⟩ := Option.map_eq_some_iff.1 hb
      cases h2
      rfl
    subst hcc
    split at he
    · next i m hb' =>
      split at he
      · cases he
        have g := grows_text e.nodes e.current e.current i t
        refine ⟨⟨?_, way_grows (e := e) g h.way⟩, g⟩
        refine ⟨?_, ?_, ?_, ?_⟩
        · obtain ⟨n, h1, h2, h3⟩ := h.nest.root
          obtain ⟨n', a1, a2, a3⟩ := g 0 n h1
          exact ⟨n', a1, a2.trans h2, a3.trans h3⟩
        · intro j n hj
          obtain ⟨n', k1, rfl⟩ := (modify_get' _ _ _ _ _).1 hj
          obtain ⟨l, b1, b2⟩ := h.nest.ways j n' k1
          refine ⟨l, ?_, ?_⟩
          · split <;> exact way_grows (e := e) g b1
          · split <;> exact b2
        · intro j n hj x hx
          obtain ⟨n', k1, rfl⟩ := (modify_get' _ _ _ _ _).1 hj
          show x < (_ : List Node).length
          rw [List.length_modify]
          refine h.nest.lt j n' k1 x ?_
          split at hx <;> exact hx
        · intro i1 j n m' hi hj hm
          obtain ⟨n1, k1, rfl⟩ := (modify_get' _ _ _ _ _).1 hi
          obtain ⟨n2, k2, rfl⟩ := (modify_get' _ _ _ _ _).1 hj
          have hm' : j ∈ n1.children := by split at hm <;> exact hm
          obtain ⟨b1, a, r', b2⟩ := h.nest.kids i1 j n1 n2 k1 k2 hm'
          have e1 : (if i1 = i then { n1 with text := n1.text ++ t } else n1).klass = n1.klass := by split <;> rfl
          have e2 : (if j = i then { n2 with text := n2.text ++ t } else n2).klass = n2.klass := by split <;> rfl
          have e3 : (if j = i then { n2 with text := n2.text ++ t } else n2).parent = n2.parent := by split <;> rfl
          rw [e1, e2, e3]
          exact ⟨b1, a, r', way_grows (e := e) g b2⟩
      · cases he
        exact hpush
    · cases he
      exact hpush

/-- Entering a node and leaving it. -/
theorem after_head {g : Klass → Bool} {i : Nat} {k : Klass} {l : List (Nat × Klass)} (h : g k = true) : after g ((i, k) :: l) = some l := by
  simp [after, h]

end Bglib.Nesting
