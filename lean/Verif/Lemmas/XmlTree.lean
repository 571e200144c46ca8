import Verif.Model.Xml
/-
What holds of every element of a tree made by `ElementTree` and a style.
-/
namespace Bglib
open Img

/-- An element with its children as its class allows it; its values satisfy `A`, its strings `S`. -/
structure Proper (A : Value → Prop) (S : Text → Prop) (e : Elem) (ks : List Tree) : Prop where
  kids : ∀ k ∈ ks, k.elem.name ∈ e.name.takes.1
  text : e.data ≠ [] → e.name.takes.2 = true
  attrs : ∀ x ∈ e.attrs, (attlist e.name x.1).isSome = true ∧ A x.2
  once : (e.attrs.map Prod.fst).Nodup
  data : ∀ s ∈ e.data, S s

inductive Sound (A : Value → Prop) (S : Text → Prop) : Tree → Prop where
  | node (e : Elem) (ks : List Tree) : Proper A S e ks → (∀ k ∈ ks, Sound A S k) → Sound A S (.node e ks)

/-- A tree of a kind. -/
def Part (A : Value → Prop) (S : Text → Prop) (n : EName) (t : Tree) : Prop := t.elem.name = n ∧ Sound A S t

/-- The values and strings `ElementTree` writes are among those that satisfy `A` and `S`. -/
structure Allows (A : Value → Prop) (S : Text → Prop) : Prop where
  num : ∀ n, S (pyStr n)
  dec : ∀ n, S (decimal n)
  yes : S t!"True" ∧ S t!"False"
  says : ∀ p, S (phrases p).roll ∧ S (phrases p).resign ∧ S (phrases p).doubled ∧ S (phrases p).took ∧ S (phrases p).move
  player : ∀ p, A (.str (playerText p))
  side : A (.str t!"left") ∧ A (.str t!"right")
  parity : A (.str t!"odd") ∧ A (.str t!"even")

variable {A : Value → Prop} {S : Text → Prop}

private theorem bind_ok {α β : Type} {x : Py α} {f : α → Py β} {b : β} (h : (x >>= f) = .ok b) :
    ∃ a, x = .ok a ∧ f a = .ok b := by
  cases x with
  | error e => simp [bind, Except.bind] at h
  | ok a => exact ⟨a, rfl, h⟩

theorem Part.node_inv {n : EName} {t : Tree} (h : Part A S n t) :
    ∃ e ks, t = .node e ks ∧ e.name = n ∧ Proper A S e ks ∧ ∀ k ∈ ks, Sound A S k := by
  obtain ⟨h1, h2⟩ := h
  cases h2 with
  | node e ks h3 h4 => exact ⟨e, ks, rfl, h1, h3, h4⟩

theorem part_write {n : EName} {t t' : Tree} {s : Text} (h : Part A S n t) (hs : S s) (hw : t.write s = .ok t') :
    Part A S n t' := by
  obtain ⟨e, ks, rfl, hn, hp, hk⟩ := h.node_inv
  by_cases ht : e.name.takes.2 = true
  · rw [show (Tree.node e ks).write s = .ok (.node { e with data := e.data ++ [s] } ks) from if_pos ht] at hw
    cases hw
    refine ⟨hn, .node _ _ ⟨hp.kids, fun _ => ht, hp.attrs, hp.once, ?_⟩ hk⟩
    intro x hx
    rcases List.mem_append.1 hx with h | h
    · exact hp.data x h
    · rw [List.mem_singleton] at h; exact h ▸ hs
  · rw [show (Tree.node e ks).write s = .error .typeError from if_neg ht] at hw
    cases hw

theorem part_append {n m : EName} {t t' k : Tree} (h : Part A S n t) (hk : Part A S m k) (hw : t.append k = .ok t') :
    Part A S n t' := by
  obtain ⟨e, ks, rfl, hn, hp, hks⟩ := h.node_inv
  by_cases ht : k.elem.name ∈ e.name.takes.1
  · rw [show (Tree.node e ks).append k = .ok (.node e (ks ++ [k])) from if_pos ht] at hw
    cases hw
    refine ⟨hn, .node _ _ ⟨?_, hp.text, hp.attrs, hp.once, hp.data⟩ ?_⟩
    · intro x hx
      rcases List.mem_append.1 hx with h | h
      · exact hp.kids x h
      · rw [List.mem_singleton] at h; exact h ▸ ht
    · intro x hx
      rcases List.mem_append.1 hx with h | h
      · exact hks x h
      · rw [List.mem_singleton] at h; exact h ▸ hk.2
  · rw [show (Tree.node e ks).append k = .error .typeError from if_neg ht] at hw
    cases hw

theorem part_new {n : EName} {attrs : List (Text × Value)} (h : ∀ x ∈ attrs, (attlist n x.1).isSome = true ∧ A x.2)
    (h' : (attrs.map Prod.fst).Nodup) : Part A S n (newElem n attrs) :=
  ⟨rfl, .node _ _ ⟨fun _ h => absurd h List.not_mem_nil, fun h => absurd rfl h, h, h', fun _ h => absurd h List.not_mem_nil⟩
    fun _ h => absurd h List.not_mem_nil⟩

theorem part_bare (n : EName) : Part A S n (newElem n []) :=
  part_new (fun _ h => absurd h List.not_mem_nil) (by simp)

theorem part_player (hA : Allows A S) (n : EName) (p : Int) (h : (attlist n t!"player").isSome = true) :
    Part A S n (newElem n (playerAttr p)) := by
  refine part_new (fun x hx => ?_) (by simp [playerAttr])
  unfold playerAttr at hx
  rw [List.mem_singleton] at hx
  subst hx
  exact ⟨h, hA.player p⟩

theorem part_leaf {n m : EName} {t t' : Tree} {attrs : List (Text × Value)} {s : Text} (h : Part A S n t)
    (h1 : ∀ x ∈ attrs, (attlist m x.1).isSome = true ∧ A x.2) (h2 : (attrs.map Prod.fst).Nodup) (hs : S s)
    (hw : addLeaf t m attrs s = .ok t') : Part A S n t' := by
  unfold addLeaf at hw
  split at hw
  · cases hw
  · rename_i c hc
    exact part_append h (part_write (part_new h1 h2) hs hc) hw

theorem part_chequers (hA : Allows A S) {n : EName} {t t' : Tree} {p k : Int} (h : Part A S n t)
    (hw : addChequers t p k = .ok t') : Part A S n t' := by
  unfold addChequers at hw
  split at hw
  · cases hw; exact h
  · split at hw
    · cases hw
    · rename_i c hc
      unfold chequerElem at hc
      exact part_append h (part_write (part_player hA .chequer p (by decide)) (hA.num k) hc) hw

theorem part_point (hA : Allows A S) {b : Board} {t t' : Tree} {i : Nat} (h : Part A S .point t)
    (hw : setPoint b t i = .ok t') : Part A S .point t' := by
  unfold setPoint at hw
  obtain ⟨y, -, hw⟩ := bind_ok hw
  obtain ⟨k, -, hw⟩ := bind_ok hw
  split at hw <;> (obtain ⟨t1, h1, hw⟩ := bind_ok hw; exact part_chequers hA (part_chequers hA h h1) hw)

theorem part_points (hA : Allows A S) {b : Board} : ∀ {ts ts' : List Tree} {i : Nat}, (∀ t ∈ ts, Part A S .point t) →
    setPoints b i ts = .ok ts' → ∀ t ∈ ts', Part A S .point t
  | [], ts', i, _, hw => by cases hw; exact fun _ h => absurd h List.not_mem_nil
  | t :: ts, ts', i, h, hw => by
    unfold setPoints at hw
    obtain ⟨t1, h1, hw⟩ := bind_ok hw
    obtain ⟨ts1, h2, hw⟩ := bind_ok hw
    cases hw
    have a := part_point hA (h t (List.mem_cons_self ..)) h1
    have b := part_points hA (fun x hx => h x (List.mem_cons_of_mem _ hx)) h2
    intro x hx
    rcases List.mem_cons.1 hx with rfl | hx
    · exact a
    · exact b x hx

/-- All parts of a tree. -/
structure Parts (A : Value → Prop) (S : Text → Prop) (t : ETree) : Prop where
  action : Part A S .action t.action
  length : Part A S .length t.length
  crawford : Part A S .crawford t.crawford
  score : Part A S .score t.score.1 ∧ Part A S .score t.score.2
  cubeholder : Part A S .cubeholder t.cubeholder
  field : Part A S .field t.field.1 ∧ Part A S .field t.field.2
  home : Part A S .home t.home.1 ∧ Part A S .home t.home.2
  bar : Part A S .bar t.bar.1 ∧ Part A S .bar t.bar.2
  points : ∀ p ∈ t.points, Part A S .point p

theorem parts_create (hA : Allows A S) : Parts A S ETree.create := by
  refine ⟨part_bare _, part_bare _, part_bare _, ⟨part_player hA _ _ (by decide), part_player hA _ _ (by decide)⟩,
    part_bare _, ⟨part_player hA _ _ (by decide), part_player hA _ _ (by decide)⟩,
    ⟨part_player hA _ _ (by decide), part_player hA _ _ (by decide)⟩,
    ⟨part_player hA _ _ (by decide), part_player hA _ _ (by decide)⟩, ?_⟩
  intro p hp
  obtain ⟨i, -, rfl⟩ := List.mem_map.1 hp
  unfold newPoint
  refine ⟨rfl, .node _ _ ⟨fun _ h => absurd h List.not_mem_nil, fun _ => rfl, ?_, by simp, ?_⟩
    fun _ h => absurd h List.not_mem_nil⟩
  · intro x hx
    rw [List.mem_singleton] at hx
    subst hx
    refine ⟨show (attlist .point t!"parity").isSome = true by decide, ?_⟩
    dsimp only
    split
    · exact hA.parity.1
    · exact hA.parity.2
  · intro s hs
    rw [List.mem_singleton] at hs
    subst hs
    exact hA.dec _

theorem parts_cube (hA : Allows A S) {b : Board} {t t' : ETree} (h : Parts A S t) (hw : setCube b t = .ok t') :
    Parts A S t' := by
  have leaf : ∀ {n : EName} {x y : Tree}, Part A S n x → addLeaf x .cube [] (decimal b.cube) = .ok y → Part A S n y :=
    fun hx hy => part_leaf hx (fun _ h => absurd h List.not_mem_nil) (by simp) (hA.dec _) hy
  unfold setCube at hw
  split at hw
  · split at hw
    · obtain ⟨x, hx, hw⟩ := bind_ok hw
      cases hw
      exact { h with home := ⟨leaf h.home.1 hx, h.home.2⟩ }
    · split at hw
      · obtain ⟨x, hx, hw⟩ := bind_ok hw
        cases hw
        exact { h with home := ⟨h.home.1, leaf h.home.2 hx⟩ }
      · split at hw
        · obtain ⟨x, hx, hw⟩ := bind_ok hw
          cases hw
          exact { h with cubeholder := leaf h.cubeholder hx }
        · cases hw
  · cases hw; exact h

theorem put_fst {n : Text} {v : Value} : ∀ {l : List (Text × Value)} {x : Text}, x ∈ (putAttr n v l).map Prod.fst →
    x = n ∨ x ∈ l.map Prod.fst
  | [], x, h => by
    simp only [putAttr, List.map_cons, List.map_nil, List.mem_singleton] at h
    exact .inl h
  | (m, w) :: r, x, h => by
    unfold putAttr at h
    split at h
    · rw [List.map_cons] at h ⊢
      exact .inr h
    · rw [List.map_cons] at h ⊢
      rcases List.mem_cons.1 h with h | h
      · exact .inr (List.mem_cons.2 (.inl h))
      · rcases put_fst h with h | h
        · exact .inl h
        · exact .inr (List.mem_cons_of_mem _ h)

theorem put_nodup {n : Text} {v : Value} : ∀ {l : List (Text × Value)}, (l.map Prod.fst).Nodup →
    ((putAttr n v l).map Prod.fst).Nodup
  | [], _ => by simp [putAttr]
  | (m, w) :: r, h => by
    rw [List.map_cons, List.nodup_cons] at h
    unfold putAttr
    split
    · rw [List.map_cons, List.nodup_cons]; exact h
    · rename_i hne
      rw [List.map_cons, List.nodup_cons]
      refine ⟨fun hm => ?_, put_nodup h.2⟩
      rcases put_fst hm with h' | h'
      · exact hne h'
      · exact h.1 h'

theorem put_all {n : Text} {v : Value} {P : Text → Value → Prop} (hv : P n v) : ∀ {l : List (Text × Value)},
    (∀ x ∈ l, P x.1 x.2) → ∀ x ∈ putAttr n v l, P x.1 x.2
  | [], _, x, hx => by
    simp only [putAttr, List.mem_singleton] at hx
    subst hx; exact hv
  | (m, w) :: r, h, x, hx => by
    unfold putAttr at hx
    split at hx
    · rename_i he
      rcases List.mem_cons.1 hx with rfl | hx
      · exact he ▸ hv
      · exact h x (List.mem_cons_of_mem _ hx)
    · rcases List.mem_cons.1 hx with rfl | hx
      · exact h _ (List.mem_cons_self ..)
      · exact put_all hv (fun y hy => h y (List.mem_cons_of_mem _ hy)) x hx

theorem proper_set {e e' : Elem} {ks : List Tree} {n : Text} {v : Value} (h : Proper A S e ks) (hv : A v)
    (hw : e.set n v = .ok e') : Proper A S e' ks ∧ e'.name = e.name := by
  unfold Elem.set at hw
  split at hw
  · cases hw
  · rename_i c hc
    split at hw
    · cases hw
      refine ⟨⟨h.kids, h.text, ?_, put_nodup h.once, h.data⟩, rfl⟩
      exact put_all (P := fun m w => (attlist e.name m).isSome = true ∧ A w) ⟨by rw [hc]; rfl, hv⟩ h.attrs
    · cases hw

theorem parts_action (hA : Allows A S) {t t' : ETree} {p : Int} {s : Text} (h : Parts A S t) (hs : S s)
    (hw : setAction t p s = .ok t') : Parts A S t' := by
  unfold setAction at hw
  obtain ⟨e', he, hw⟩ := bind_ok hw
  obtain ⟨a, ha, hw⟩ := bind_ok hw
  cases hw
  obtain ⟨e, ks, h1, hn, hp, hk⟩ := h.action.node_inv
  rw [h1] at he ha
  simp only [Tree.elem, Tree.kids] at he ha
  obtain ⟨h2, h3⟩ := proper_set hp (hA.player p) he
  have key : Part A S .action (.node e' ks) := ⟨h3.trans hn, .node _ _ h2 hk⟩
  exact { h with action := part_write key hs ha }

theorem parts_field {t t' : ETree} {p : Int} {m : EName} {attrs : List (Text × Value)} {s : Text}
    (h : Parts A S t) (h1 : ∀ x ∈ attrs, (attlist m x.1).isSome = true ∧ A x.2) (h2 : (attrs.map Prod.fst).Nodup) (hs : S s)
    (hw : addField t p m attrs s = .ok t') : Parts A S t' := by
  unfold addField at hw
  split at hw
  · obtain ⟨f, hf, hw⟩ := bind_ok hw
    cases hw
    exact { h with field := ⟨part_leaf h.field.1 h1 h2 hs hf, h.field.2⟩ }
  · obtain ⟨f, hf, hw⟩ := bind_ok hw
    cases hw
    exact { h with field := ⟨h.field.1, part_leaf h.field.2 h1 h2 hs hf⟩ }

theorem parts_turn (hA : Allows A S) {b : Board} {t t' : ETree} {p o : Int} (h : Parts A S t)
    (hw : setTurn b t p o = .ok t') : Parts A S t' := by
  obtain ⟨s1, s2, s3, s4, s5⟩ := hA.says p
  have nil : ∀ m : EName, ∀ x ∈ ([] : List (Text × Value)), (attlist m x.1).isSome = true ∧ A x.2 :=
    fun _ _ h => absurd h List.not_mem_nil
  unfold setTurn at hw
  split at hw
  · split at hw
    · exact parts_action hA h s1 hw
    · split at hw
      · obtain ⟨t1, h1, hw⟩ := bind_ok hw
        exact parts_field (parts_action hA h s2 h1) (nil _) (by simp) (hA.num _) hw
      · split at hw
        · obtain ⟨t1, h1, hw⟩ := bind_ok hw
          exact parts_action hA (parts_field h (nil _) (by simp) (hA.dec _) h1) s3 hw
        · split at hw
          · exact parts_action hA h s4 hw
          · cases hw
  · obtain ⟨t1, h1, hw⟩ := bind_ok hw
    obtain ⟨t2, h2, hw⟩ := bind_ok hw
    have one : ∀ v : Text, A (.str v) → ∀ x ∈ [(t!"id", Value.str v)], (attlist .die x.1).isSome = true ∧ A x.2 := by
      intro v hv x hx
      rw [List.mem_singleton] at hx
      subst hx
      exact ⟨show (attlist .die t!"id").isSome = true by decide, hv⟩
    exact parts_field (parts_field (parts_action hA h s5 h1) (one _ hA.side.2) (by simp) (hA.num _) h2)
      (one _ hA.side.1) (by simp) (hA.num _) hw

theorem parts_set (hA : Allows A S) {b : Board} {t t' : ETree} (h : Parts A S t) (hw : t.set b = .ok t') :
    Parts A S t' := by
  unfold ETree.set at hw
  obtain ⟨sy, h1, hw⟩ := bind_ok hw
  obtain ⟨sh, h2, hw⟩ := bind_ok hw
  obtain ⟨l, h3, hw⟩ := bind_ok hw
  obtain ⟨c, h4, hw⟩ := bind_ok hw
  obtain ⟨ps, h5, hw⟩ := bind_ok hw
  obtain ⟨y, -, hw⟩ := bind_ok hw
  obtain ⟨bary, h6, hw⟩ := bind_ok hw
  obtain ⟨k, -, hw⟩ := bind_ok hw
  obtain ⟨barh, h7, hw⟩ := bind_ok hw
  obtain ⟨homey, h8, hw⟩ := bind_ok hw
  obtain ⟨homeh, h9, hw⟩ := bind_ok hw
  dsimp only at hw
  obtain ⟨t1, h10, hw⟩ := bind_ok hw
  have hc : S (if b.crawford = true then t!"True" else t!"False") := by
    split
    · exact hA.yes.1
    · exact hA.yes.2
  have key : Parts A S t1 := parts_cube hA ?_ h10
  rotate_left
  · exact ⟨h.action, part_write h.length (hA.num _) h3, part_write h.crawford hc h4,
    ⟨part_write h.score.1 (hA.num _) h1, part_write h.score.2 (hA.num _) h2⟩, h.cubeholder, h.field,
    ⟨part_chequers hA h.home.1 h8, part_chequers hA h.home.2 h9⟩,
    ⟨part_chequers hA h.bar.1 h6, part_chequers hA h.bar.2 h7⟩, part_points hA h.points h5⟩
  split at hw
  · exact parts_turn hA key hw
  · split at hw
    · exact parts_turn hA key hw
    · cases hw

theorem parts_board {t : ETree} (h : Parts A S t) : Sound A S t.board := by
  have plain : ∀ (n : EName) (ks : List Tree), (∀ k ∈ ks, k.elem.name ∈ n.takes.1 ∧ Sound A S k) →
      Sound A S (.node ⟨n, [], []⟩ ks) := fun n ks hk =>
    .node _ _ ⟨fun k h => (hk k h).1, fun h => absurd rfl h, fun _ h => absurd h List.not_mem_nil, by simp,
      fun _ h => absurd h List.not_mem_nil⟩ fun k h => (hk k h).2
  have get : ∀ {n m : EName} {k : Tree}, m ∈ n.takes.1 → Part A S m k → k.elem.name ∈ n.takes.1 ∧ Sound A S k :=
    fun h1 h2 => ⟨by rw [h2.1]; exact h1, h2.2⟩
  unfold ETree.board
  refine plain .board _ fun k hk => ?_
  simp only [List.mem_cons, List.not_mem_nil, or_false] at hk
  rcases hk with rfl | rfl
  · refine ⟨by simp [Tree.elem, EName.takes], plain .match _ fun k hk => ?_⟩
    simp only [List.mem_cons, List.not_mem_nil, or_false] at hk
    rcases hk with rfl | rfl | rfl | rfl | rfl
    · exact get (by simp [EName.takes]) h.action
    · exact get (by simp [EName.takes]) h.length
    · exact get (by simp [EName.takes]) h.crawford
    · exact get (by simp [EName.takes]) h.score.1
    · exact get (by simp [EName.takes]) h.score.2
  · refine ⟨by simp [Tree.elem, EName.takes], plain .position _ fun k hk => ?_⟩
    simp only [List.mem_append, List.mem_cons, List.not_mem_nil, or_false] at hk
    rcases hk with ((rfl | rfl | rfl | rfl | rfl | rfl) | hk) | rfl | rfl | rfl
    · exact get (m := .topFrame) (by simp [EName.takes]) (part_bare _)
    · exact get (m := .bottomFrame) (by simp [EName.takes]) (part_bare _)
    · exact get (by simp [EName.takes]) h.cubeholder
    · exact get (by simp [EName.takes]) h.field.1
    · exact get (by simp [EName.takes]) h.home.1
    · exact get (by simp [EName.takes]) h.bar.2
    · exact get (m := .point) (by simp [EName.takes]) (h.points k hk)
    · exact get (by simp [EName.takes]) h.bar.1
    · exact get (by simp [EName.takes]) h.home.2
    · exact get (by simp [EName.takes]) h.field.2

/-! ### Styles -/

/-- Every value a rule gives satisfies `A`. -/
def RuleAllows (A : Value → Prop) (r : Rule) : Prop :=
  ∀ x ∈ r.block, ∀ (n : EName) (c : AttrClass) (v : Value) (css : Option Text), attlist n x.1 = some c →
    (css = none ∨ css = some r.css) → c.kind.parse css x.2 = .ok v → A v

theorem proper_apply {css : Text} {ks : List Tree} : ∀ {d : List (Text × Text)} {e e' : Elem}, Proper A S e ks →
    (∀ x ∈ d, ∀ (n : EName) (c : AttrClass) (v : Value) (o : Option Text), attlist n x.1 = some c →
      (o = none ∨ o = some css) → c.kind.parse o x.2 = .ok v → A v) →
    e.apply css d = .ok e' → Proper A S e' ks ∧ e'.name = e.name
  | [], e, e', h, _, hw => by cases hw; exact ⟨h, rfl⟩
  | (n, s) :: d, e, e', h, hr, hw => by
    unfold Elem.apply at hw
    split at hw
    · cases hw
    · rename_i e1 h1
      unfold Elem.apply1 at h1
      split at h1
      · cases h1
      · rename_i c hc
        split at h1
        · cases h1
        · rename_i v hv
          have hA := hr (n, s) (List.mem_cons_self ..) e.name c v _ hc (by split <;> simp) hv
          obtain ⟨h2, h3⟩ := proper_set h hA h1
          obtain ⟨h4, h5⟩ := proper_apply h2 (fun x hx => hr x (List.mem_cons_of_mem _ hx)) hw
          exact ⟨h4, h5.trans h3⟩

theorem proper_rules {anc : List Elem} {ks : List Tree} : ∀ {rs : List Rule} {e e' : Elem}, Proper A S e ks →
    (∀ r ∈ rs, RuleAllows A r) → applyRules anc e rs = .ok e' → Proper A S e' ks ∧ e'.name = e.name
  | [], e, e', h, _, hw => by cases hw; exact ⟨h, rfl⟩
  | r :: rs, e, e', h, hr, hw => by
    unfold applyRules at hw
    split at hw
    · cases hw
    · rename_i e1 h1
      have key : Proper A S e1 ks ∧ e1.name = e.name := by
        unfold Rule.apply at h1
        split at h1
        · cases h1
        · cases h1; exact ⟨h, rfl⟩
        · exact proper_apply h (hr r (List.mem_cons_self ..)) h1
      obtain ⟨h4, h5⟩ := proper_rules key.1 (fun x hx => hr x (List.mem_cons_of_mem _ hx)) hw
      exact ⟨h4, h5.trans key.2⟩

mutual
theorem sound_styled {rs : List Rule} (hr : ∀ r ∈ rs, RuleAllows A r) : ∀ (t : Tree) {t' : Tree} {anc : List Elem},
    Sound A S t → t.styled rs anc = .ok t' → Sound A S t' ∧ t'.elem.name = t.elem.name
  | .node e ks, t', anc, h, hw => by
    cases h with
    | node _ _ hp hk =>
      unfold Tree.styled at hw
      split at hw
      · cases hw
      · rename_i e1 h1
        split at hw
        · cases hw
        · rename_i ks1 h2
          cases hw
          obtain ⟨h3, h4⟩ := proper_rules hp hr h1
          obtain ⟨h5, h6⟩ := sound_styledAll hr ks hk h2
          refine ⟨.node _ _ ⟨?_, h3.text, h3.attrs, h3.once, h3.data⟩ h5, h4⟩
          intro k hk'
          have : k.elem.name ∈ ks1.map fun k => k.elem.name := List.mem_map.2 ⟨k, hk', rfl⟩
          rw [h6] at this
          obtain ⟨k0, hk0, he⟩ := List.mem_map.1 this
          rw [h4, ← he]
          exact hp.kids k0 hk0
theorem sound_styledAll {rs : List Rule} (hr : ∀ r ∈ rs, RuleAllows A r) : ∀ (ts : List Tree) {ts' : List Tree}
    {anc : List Elem}, (∀ t ∈ ts, Sound A S t) → styledAll rs anc ts = .ok ts' →
    (∀ t ∈ ts', Sound A S t) ∧ ts'.map (fun k => k.elem.name) = ts.map fun k => k.elem.name
  | [], ts', anc, _, hw => by
    unfold styledAll at hw
    cases hw
    exact ⟨fun _ h => absurd h List.not_mem_nil, rfl⟩
  | t :: ts, ts', anc, h, hw => by
    unfold styledAll at hw
    split at hw
    · cases hw
    · rename_i t1 h1
      split at hw
      · cases hw
      · rename_i ts1 h2
        cases hw
        obtain ⟨a1, a2⟩ := sound_styled hr t (h t (List.mem_cons_self ..)) h1
        obtain ⟨b1, b2⟩ := sound_styledAll hr ts (fun x hx => h x (List.mem_cons_of_mem _ hx)) h2
        refine ⟨fun x hx => ?_, ?_⟩
        · rcases List.mem_cons.1 hx with rfl | hx
          · exact a1
          · exact b1 x hx
        · rw [List.map_cons, List.map_cons, a2, b2]
end

end Bglib
