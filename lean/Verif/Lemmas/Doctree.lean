import Verif.Spec.Doctree
/-
Invariants of the document editor.
-/
namespace Bglib
open Spec Doc

/-! ### Lists of nodes -/

theorem modify_get (l : List Node) (c : Nat) (f : Node → Node) (x : Node) (i : Nat) (n : Node) :
    (l.modify c f ++ [x])[i]? = some n ↔
      (∃ m, l[i]? = some m ∧ n = if i = c then f m else m) ∨ (i = l.length ∧ n = x) := by
  by_cases hi : i < l.length
  · rw [List.getElem?_append_left (by simpa using hi), List.getElem?_modify]
    rw [List.getElem?_eq_getElem hi]
    constructor
    · intro h
      left
      refine ⟨_, rfl, ?_⟩
      by_cases hc : c = i
      · simp [hc] at h ⊢; exact h.symm
      · simp [hc] at h
        simp [Ne.symm hc, h]
    · rintro (⟨m, h1, h2⟩ | ⟨h, _⟩)
      · cases h1
        by_cases hc : c = i
        · simp [hc] at h2 ⊢; exact h2.symm
        · simp [hc, Ne.symm hc] at h2 ⊢; exact h2.symm
      · omega
  · rw [List.getElem?_append_right (by simpa using hi)]
    have hn : l[i]? = none := by simpa using hi
    rw [hn]
    simp only [List.length_modify, reduceCtorEq, false_and, exists_false, false_or]
    by_cases h : i = l.length
    · subst h; simp [eq_comm]
    · have : 1 ≤ i - l.length := by omega
      rw [List.getElem?_eq_none (by simpa using this)]
      simp [h]

theorem modify_get' (l : List Node) (c : Nat) (f : Node → Node) (i : Nat) (n : Node) :
    (l.modify c f)[i]? = some n ↔ ∃ m, l[i]? = some m ∧ n = if i = c then f m else m := by
  rw [List.getElem?_modify]
  cases l[i]? with
  | none => simp
  | some m =>
    by_cases hc : c = i
    · simp [hc, eq_comm]
    · simp [hc, Ne.symm hc, eq_comm]

theorem flatMap_modify (l : List Node) (c x : Nat) (hc : c < l.length) :
    ((l.modify c fun n => { n with children := n.children ++ [x] }).flatMap (·.children)).Perm
      (x :: l.flatMap (·.children)) := by
  induction l generalizing c with
  | nil => simp at hc
  | cons n l ih =>
    cases c with
    | zero =>
      simp only [List.modify_zero_cons, List.flatMap_cons, List.append_assoc, List.singleton_append]
      exact List.perm_middle
    | succ c =>
      simp only [List.modify_succ_cons, List.flatMap_cons]
      refine (List.Perm.append_left _ (ih c (by simpa using hc))).trans ?_
      exact List.perm_middle

theorem flatMap_erase (l : List Node) (c x : Nat) :
    ((l.modify c fun n => { n with children := n.children.erase x }).flatMap (·.children)).Sublist
      (l.flatMap (·.children)) := by
  induction l generalizing c with
  | nil => simp
  | cons n l ih =>
    cases c with
    | zero =>
      simp only [List.modify_zero_cons, List.flatMap_cons]
      exact List.Sublist.append_right List.erase_sublist _
    | succ c =>
      simp only [List.modify_succ_cons, List.flatMap_cons]
      exact List.Sublist.append_left (ih c) _

/-! ### The invariant -/

structure DInv (e : Editor) : Prop where
  root : ∃ n, e.nodes[0]? = some n ∧ n.klass = .root ∧ n.parent = none
  notRoot : ∀ i n, e.nodes[i]? = some n → i ≠ 0 → n.klass ≠ .root
  parents : ∀ i n, e.nodes[i]? = some n → i ≠ 0 → ∃ p, n.parent = some p ∧ p < i
  children : ∀ i n, e.nodes[i]? = some n → ∀ c ∈ n.children, i < c ∧ c < e.nodes.length
  nodup : (e.nodes.flatMap (·.children)).Nodup
  current : ∀ c, e.current = some c → c < e.nodes.length
  texts : ∀ (i : Nat) (n : Node), e.nodes[i]? = some n → n.klass ≠ .text → n.text = []
  accepted : ∀ (i j : Nat) (n m : Node), e.nodes[i]? = some n → e.nodes[j]? = some m → j ∈ n.children →
    m.klass = .text ∨ n.klass.accepts m.klass = true

theorem start_inv : DInv Editor.start := by
  have hone : ∀ (i : Nat) n, Editor.start.nodes[i]? = some n → i = 0 ∧ n = ⟨.root, none, [], []⟩ := by
    intro i n h
    cases i with
    | zero => simp [Editor.start] at h; exact ⟨rfl, h.symm⟩
    | succ i => simp [Editor.start] at h
  constructor
  · exact ⟨_, rfl, rfl, rfl⟩
  · intro i n h h0; exact absurd (hone i n h).1 h0
  · intro i n h h0; exact absurd (hone i n h).1 h0
  · intro i n h c hc; rw [(hone i n h).2] at hc; simp at hc
  · simp [Editor.start]
  · intro c h; simp [Editor.start] at h ⊢; omega
  · intro i n h _; rw [(hone i n h).2]
  · intro i j n m h _ hj; rw [(hone i n h).2] at hj; simp at hj

theorem climb_spec (e : Editor) (hi : DInv e) (f : Node → Bool) (fuel : Nat) (s : Option Nat)
    (hs : ∀ c, s = some c → c < e.nodes.length ∧ c < fuel) :
    e.climb f fuel s = .ok none ∨
    ∃ i n, e.climb f fuel s = .ok (some i) ∧ e.nodes[i]? = some n ∧ f n = true ∧ ∀ c, s = some c → i ≤ c := by
  induction fuel generalizing s with
  | zero =>
    cases s with
    | none => exact Or.inl rfl
    | some c => have := hs c rfl; omega
  | succ fuel ih =>
    cases s with
    | none => exact Or.inl rfl
    | some c =>
      obtain ⟨h1, h2⟩ := hs c rfl
      unfold Editor.climb
      rw [List.getElem?_eq_getElem h1]
      dsimp only
      split
      · next hf =>
        exact Or.inr ⟨c, _, rfl, List.getElem?_eq_getElem h1, hf, fun _ h => by cases h; omega⟩
      · have hlt : ∀ p, e.nodes[c].parent = some p → p < c := by
          intro p hp
          by_cases h0 : c = 0
          · subst h0
            obtain ⟨n, hn, _, hnp⟩ := hi.root
            rw [List.getElem?_eq_getElem h1] at hn
            cases hn
            rw [hnp] at hp
            simp at hp
          · obtain ⟨q, hq, hlt⟩ := hi.parents c _ (List.getElem?_eq_getElem h1) h0
            rw [hp] at hq
            cases hq
            exact hlt
        rcases ih e.nodes[c].parent (fun p hp => by have := hlt p hp; omega) with h | ⟨i, n, h3, h4, h5, h6⟩
        · exact Or.inl h
        · refine Or.inr ⟨i, n, h3, h4, h5, fun _ h => ?_⟩
          cases h
          cases hp : e.nodes[c].parent with
          | none =>
            rw [hp] at h3
            cases fuel <;> simp [Editor.climb] at h3
          | some p => have := h6 p hp; have := hlt p hp; omega

/-- A condition true of the root is met on the way. -/
theorem climb_root (e : Editor) (hi : DInv e) (f : Node → Bool) (hf : ∀ n, n.klass = .root → f n = true)
    (fuel c : Nat) (h1 : c < e.nodes.length) (h2 : c < fuel) :
    ∃ i n, e.climb f fuel (some c) = .ok (some i) ∧ e.nodes[i]? = some n ∧ f n = true ∧ i ≤ c := by
  rcases climb_spec e hi f fuel (some c) (fun _ h => by cases h; exact ⟨h1, h2⟩) with h | ⟨i, n, h3, h4, h5, h6⟩
  · exfalso
    induction fuel generalizing c with
    | zero => omega
    | succ fuel ih =>
      unfold Editor.climb at h
      rw [List.getElem?_eq_getElem h1] at h
      dsimp only at h
      split at h
      · simp at h
      · next hnf =>
        by_cases h0 : c = 0
        · subst h0
          obtain ⟨n, hn, hnr, _⟩ := hi.root
          rw [List.getElem?_eq_getElem h1] at hn
          cases hn
          exact hnf (hf _ hnr)
        · obtain ⟨p, hp, hlt⟩ := hi.parents c _ (List.getElem?_eq_getElem h1) h0
          rw [hp] at h
          exact ih p (by omega) (by omega) h
  · exact ⟨i, n, h3, h4, h5, h6 c rfl⟩

/-- Adding a node as a child of `c`, with a parent that exists. -/
theorem push_inv (e : Editor) (hi : DInv e) (c : Nat) (hc : c < e.nodes.length) (k : Klass) (hk : k ≠ .root)
    (p : Nat) (hp : p < e.nodes.length) (t : Text) (ht : k ≠ .text → t = [])
    (ha : k = .text ∨ ∀ n, e.nodes[c]? = some n → n.klass.accepts k = true) (cur : Option Nat)
    (hcur : ∀ x, cur = some x → x ≤ e.nodes.length) :
    DInv ⟨e.nodes.modify c (fun n => { n with children := n.children ++ [e.nodes.length] }) ++
      [⟨k, some p, [], t⟩], cur⟩ := by
  constructor
  · obtain ⟨n, h1, h2, h3⟩ := hi.root
    refine ⟨_, (modify_get _ _ _ _ _ _).2 (Or.inl ⟨n, h1, rfl⟩), ?_, ?_⟩ <;> split <;> assumption
  · intro i n h h0
    rcases (modify_get _ _ _ _ _ _).1 h with ⟨m, h1, rfl⟩ | ⟨_, rfl⟩
    · have := hi.notRoot i m h1 h0
      split <;> exact this
    · exact hk
  · intro i n h h0
    rcases (modify_get _ _ _ _ _ _).1 h with ⟨m, h1, rfl⟩ | ⟨hl, rfl⟩
    · obtain ⟨q, h2, h3⟩ := hi.parents i m h1 h0
      refine ⟨q, ?_, h3⟩
      split <;> exact h2
    · exact ⟨p, rfl, by omega⟩
  · intro i n h x hx
    simp only [List.length_append, List.length_modify, List.length_cons, List.length_nil]
    rcases (modify_get _ _ _ _ _ _).1 h with ⟨m, h1, rfl⟩ | ⟨hl, rfl⟩
    · have hil : i < e.nodes.length := (List.getElem?_eq_some_iff.1 h1).1
      split at hx
      · simp only [List.mem_append, List.mem_singleton] at hx
        rcases hx with hx | rfl
        · have := hi.children i m h1 x hx; omega
        · omega
      · have := hi.children i m h1 x hx; omega
    · simp at hx
  · rw [List.flatMap_append]
    simp only [List.flatMap_cons, List.flatMap_nil, List.append_nil]
    refine (flatMap_modify e.nodes c e.nodes.length hc).nodup_iff.2 (List.nodup_cons.2 ⟨?_, hi.nodup⟩)
    intro hm
    obtain ⟨n, hn, hx⟩ := List.mem_flatMap.1 hm
    obtain ⟨i, hil, rfl⟩ := List.mem_iff_getElem.1 hn
    have := hi.children i _ (List.getElem?_eq_getElem hil) _ hx
    omega
  · intro x hx
    have := hcur x hx
    simp only [List.length_append, List.length_modify, List.length_cons, List.length_nil]
    omega
  · intro i n h hnt
    rcases (modify_get _ _ _ _ _ _).1 h with ⟨m, h1, rfl⟩ | ⟨hl, rfl⟩
    · split at hnt
      · next hc => rw [if_pos hc]; exact hi.texts i m h1 hnt
      · next hc => rw [if_neg hc]; exact hi.texts i m h1 hnt
    · exact ht hnt
  · intro i j n m hn hm hj
    rcases (modify_get _ _ _ _ _ _).1 hn with ⟨n', h1, rfl⟩ | ⟨hl, rfl⟩
    · have hnk : (if i = c then { n' with children := n'.children ++ [e.nodes.length] } else n').klass = n'.klass := by
        split <;> rfl
      rw [hnk]
      rcases (modify_get _ _ _ _ _ _).1 hm with ⟨m', h2, rfl⟩ | ⟨hl, rfl⟩
      · have hmk : (if j = c then { m' with children := m'.children ++ [e.nodes.length] } else m').klass = m'.klass := by
          split <;> rfl
        rw [hmk]
        have hjl := (List.getElem?_eq_some_iff.1 h2).1
        refine hi.accepted i j n' m' h1 h2 ?_
        split at hj
        · simp only [List.mem_append, List.mem_singleton] at hj
          rcases hj with hj | hj
          · exact hj
          · omega
        · exact hj
      · split at hj
        · next hic =>
          subst hic
          rcases ha with ha | ha
          · exact Or.inl ha
          · exact Or.inr (ha n' h1)
        · have := hi.children i n' h1 j hj
          omega
    · simp at hj

/-- Changing a node other than in its class, parent and (except for leaving some out) children. -/
theorem modify_inv (e : Editor) (hi : DInv e) (c : Nat) (f : Node → Node) (hk : ∀ n, (f n).klass = n.klass)
    (hp : ∀ n, (f n).parent = n.parent) (hch : ∀ n, (f n).children.Sublist n.children)
    (ht : ∀ n, e.nodes[c]? = some n → n.klass ≠ .text → (f n).text = []) (cur : Option Nat)
    (hcur : ∀ x, cur = some x → x < e.nodes.length) : DInv ⟨e.nodes.modify c f, cur⟩ := by
  constructor
  · obtain ⟨n, h1, h2, h3⟩ := hi.root
    refine ⟨_, (modify_get' _ _ _ _ _).2 ⟨n, h1, rfl⟩, ?_, ?_⟩
    · split
      · rw [hk]; exact h2
      · exact h2
    · split
      · rw [hp]; exact h3
      · exact h3
  · intro i n h h0
    obtain ⟨m, h1, rfl⟩ := (modify_get' _ _ _ _ _).1 h
    have := hi.notRoot i m h1 h0
    split
    · rw [hk]; exact this
    · exact this
  · intro i n h h0
    obtain ⟨m, h1, rfl⟩ := (modify_get' _ _ _ _ _).1 h
    obtain ⟨q, h2, h3⟩ := hi.parents i m h1 h0
    refine ⟨q, ?_, h3⟩
    split
    · rw [hp]; exact h2
    · exact h2
  · intro i n h x hx
    obtain ⟨m, h1, rfl⟩ := (modify_get' _ _ _ _ _).1 h
    simp only [List.length_modify]
    refine hi.children i m h1 x ?_
    split at hx
    · exact (hch m).subset hx
    · exact hx
  · refine List.Nodup.sublist ?_ hi.nodup
    show ((e.nodes.modify c f).flatMap (·.children)).Sublist (e.nodes.flatMap (·.children))
    clear ht
    generalize e.nodes = l
    induction l generalizing c with
    | nil => simp
    | cons n l ih =>
      cases c with
      | zero =>
        simp only [List.modify_zero_cons, List.flatMap_cons]
        exact List.Sublist.append_right (hch n) _
      | succ c =>
        simp only [List.modify_succ_cons, List.flatMap_cons]
        exact List.Sublist.append_left (ih c) _
  · intro x hx
    simpa using hcur x hx
  · intro i n h hnt
    obtain ⟨m, h1, rfl⟩ := (modify_get' _ _ _ _ _).1 h
    split at hnt
    · next hc => rw [if_pos hc]; subst hc; rw [hk] at hnt; exact ht m h1 hnt
    · next hc => rw [if_neg hc]; exact hi.texts i m h1 hnt
  · intro i j n m hn hm hj
    obtain ⟨n', h1, rfl⟩ := (modify_get' _ _ _ _ _).1 hn
    obtain ⟨m', h2, rfl⟩ := (modify_get' _ _ _ _ _).1 hm
    have hnk : (if i = c then f n' else n').klass = n'.klass := by
      split
      · exact hk n'
      · rfl
    have hmk : (if j = c then f m' else m').klass = m'.klass := by
      split
      · exact hk m'
      · rfl
    rw [hnk, hmk]
    refine hi.accepted i j n' m' h1 h2 ?_
    split at hj
    · exact (hch n').subset hj
    · exact hj

theorem append_spec (e : Editor) (hi : DInv e) (k : Klass) (hk : k ≠ .root) (cur : Nat)
    (hcur : e.current = some cur) :
    ∃ c n, c ≤ cur ∧ e.nodes[c]? = some n ∧ n.klass.accepts k = true ∧
      e.append k = .ok (⟨e.nodes.modify c (fun n => { n with children := n.children ++ [e.nodes.length] }) ++
        [⟨k, some cur, [], []⟩], some c⟩, e.nodes.length) := by
  have hlt := hi.current cur hcur
  obtain ⟨c, n, h1, h2, h3, h4⟩ := climb_root e hi (fun n => n.klass.accepts k)
    (fun n hn => by simp [Klass.accepts, hn]) (e.nodes.length + 1) cur hlt (by omega)
  refine ⟨c, n, h4, h2, h3, ?_⟩
  unfold Editor.append
  rw [if_neg hk, hcur, h1]

theorem apply_inv (e e' : Editor) (hi : DInv e) (o : Op) (h : e.apply o = .ok e') : DInv e' := by
  have happ : ∀ k e' i, e.append k = .ok (e', i) → i = e.nodes.length ∧ ∀ cur : Option Nat,
      (∀ x, cur = some x → x ≤ e.nodes.length) → DInv { e' with current := cur } := by
    intro k e' i h
    by_cases hk : k = .root
    · unfold Editor.append at h; simp [hk] at h
    · cases hc : e.current with
      | none => unfold Editor.append at h; rw [if_neg hk, hc] at h; simp [Editor.climb] at h
      | some cur =>
        obtain ⟨c, n, h1, h2, h3, h4⟩ := append_spec e hi k hk cur hc
        rw [h4] at h
        cases h
        exact ⟨rfl, fun cu hcu => push_inv e hi c (List.getElem?_eq_some_iff.1 h2).1 k hk cur
          (hi.current cur hc) [] (fun _ => rfl) (Or.inr fun n' hn' => by rw [h2] at hn'; cases hn'; exact h3) cu hcu⟩
  cases o with
  | enter k =>
    simp only [Editor.apply, Editor.enter] at h
    cases ha : e.append k with
    | error x => rw [ha] at h; simp at h
    | ok r =>
      rw [ha] at h
      cases h
      obtain ⟨h1, h2⟩ := happ k r.1 r.2 ha
      exact h2 _ (fun x hx => by cases hx; omega)
  | append k =>
    simp only [Editor.apply] at h
    cases ha : e.append k with
    | error x => rw [ha] at h; simp at h
    | ok r =>
      rw [ha] at h
      cases h
      obtain ⟨h1, h2⟩ := happ k r.1 r.2 ha
      refine h2 r.1.current fun x hx => ?_
      by_cases hk : k = .root
      · unfold Editor.append at ha; simp [hk] at ha
      · cases hc : e.current with
        | none => unfold Editor.append at ha; rw [if_neg hk, hc] at ha; simp [Editor.climb] at ha
        | some cur =>
          obtain ⟨c, n, h1, h2, _, h4⟩ := append_spec e hi k hk cur hc
          rw [h4] at ha
          cases ha
          cases hx
          have := hi.current cur hc
          omega
  | leave k =>
    simp only [Editor.apply, Editor.leave] at h
    rcases climb_spec e hi (fun n => n.klass.isA k) (e.nodes.length + 1) e.current
      (fun c hc => by have := hi.current c hc; omega) with hc | ⟨i, n, h1, h2, _, _⟩
    · rw [hc] at h
      cases h
      exact hi
    · rw [h1] at h
      cases h
      refine ⟨hi.root, hi.notRoot, hi.parents, hi.children, hi.nodup, fun x hx => ?_, hi.texts, hi.accepted⟩
      have hil := (List.getElem?_eq_some_iff.1 h2).1
      simp only [Editor.parentOf, h2, Option.bind_some] at hx
      by_cases h0 : i = 0
      · subst h0
        obtain ⟨m, hm, _, hmp⟩ := hi.root
        rw [h2] at hm
        cases hm
        rw [hmp] at hx
        simp at hx
      · obtain ⟨p, hp, hlt⟩ := hi.parents i n h2 h0
        rw [hp] at hx
        cases hx
        show x < e.nodes.length
        omega
  | text t =>
    simp only [Editor.apply, Editor.appendText] at h
    cases hc : e.current with
    | none => rw [hc] at h; simp at h
    | some c =>
      have hcl := hi.current c hc
      rw [hc, Option.bind_some, List.getElem?_eq_getElem hcl] at h
      simp only [Option.map_some] at h
      have hpush := push_inv e hi c hcl .text (by decide) c hcl t (fun h => absurd rfl h) (Or.inl rfl)
        (some c) (fun x hx => by cases hx; omega)
      split at h
      · split at h
        · next i m hm hmt =>
          cases h
          refine modify_inv e hi i (fun m => { m with text := m.text ++ t }) (fun _ => rfl) (fun _ => rfl)
            (fun _ => List.Sublist.refl _) ?_ _ (fun x hx => hi.current x (hc.trans hx))
          intro n hn hnt
          have : e.nodes[i]? = some m := by
            cases hl : e.nodes[c].children.getLast? with
            | none => rw [hl] at hm; simp at hm
            | some j =>
              rw [hl] at hm
              cases hj : e.nodes[j]? with
              | none => simp [hj] at hm
              | some m' =>
                simp only [Option.bind_some, hj, Option.map_some, Option.some.injEq, Prod.mk.injEq] at hm
                rw [← hm.1, hj, hm.2]
          rw [hn] at this
          cases this
          exact absurd hmt hnt
        · cases h; exact hpush
      · cases h; exact hpush
  | remove i =>
    simp only [Editor.apply, Editor.remove] at h
    split at h
    · simp at h
    · split at h
      · cases h
        exact modify_inv e hi _ (fun n => { n with children := n.children.erase i }) (fun _ => rfl) (fun _ => rfl)
          (fun _ => List.erase_sublist) (fun n hn hnt => hi.texts _ n hn hnt) _ hi.current
      · simp at h
  | done =>
    cases h
    refine ⟨hi.root, hi.notRoot, hi.parents, hi.children, hi.nodup, fun x hx => ?_, hi.texts, hi.accepted⟩
    simp only [Editor.done, Option.some.injEq] at hx ⊢
    obtain ⟨n, h1, _⟩ := hi.root
    have := (List.getElem?_eq_some_iff.1 h1).1
    omega

theorem run_inv (os : List Op) (e e' : Editor) (hi : DInv e) (h : e.run os = .ok e') : DInv e' := by
  induction os generalizing e with
  | nil => cases h; exact hi
  | cons o os ih =>
    simp only [Editor.run] at h
    cases ha : e.apply o with
    | error x => rw [ha] at h; simp at h
    | ok e1 => rw [ha] at h; exact ih e1 (apply_inv e e1 hi o ha) h

theorem inv_tree (e : Editor) (hi : DInv e) : IsTree e := by
  have hsplit : ∀ (l : List Node) (i i' j : Nat) (n n' : Node), l[i]? = some n → l[i']? = some n' →
      j ∈ n.children → j ∈ n'.children → (l.flatMap (·.children)).Nodup → i = i' := by
    intro l
    induction l with
    | nil => intro i i' j n n' h; simp at h
    | cons x l ih =>
      intro i i' j n n' h h' hj hj' hnd
      rw [List.flatMap_cons, List.nodup_append] at hnd
      have hin : ∀ (k : Nat) m, l[k]? = some m → j ∈ m.children → j ∈ l.flatMap (·.children) := fun k m hk hm =>
        List.mem_flatMap.2 ⟨m, List.mem_of_getElem? hk, hm⟩
      cases i with
      | zero =>
        cases i' with
        | zero => rfl
        | succ i' =>
          simp only [List.getElem?_cons_zero, Option.some.injEq] at h
          simp only [List.getElem?_cons_succ] at h'
          subst h
          exact absurd rfl (hnd.2.2 j hj j (hin i' n' h' hj'))
      | succ i =>
        simp only [List.getElem?_cons_succ] at h
        cases i' with
        | zero =>
          simp only [List.getElem?_cons_zero, Option.some.injEq] at h'
          subst h'
          exact absurd rfl (hnd.2.2 j hj' j (hin i n h hj))
        | succ i' =>
          simp only [List.getElem?_cons_succ] at h'
          rw [ih i i' j n n' h h' hj hj' hnd.2.1]
  refine ⟨?_, ?_, ?_, ?_⟩
  · obtain ⟨n, h1, h2, _⟩ := hi.root
    exact ⟨n, h1, h2⟩
  · rintro i j ⟨n, h1, h2⟩
    exact hi.children i n h1 j h2
  · rintro i i' j ⟨n, h1, h2⟩ ⟨n', h1', h2'⟩
    exact hsplit e.nodes i i' j n n' h1 h1' h2 h2' hi.nodup
  · intro i n h
    refine List.Nodup.sublist ?_ hi.nodup
    obtain ⟨s, t, hst⟩ := List.append_of_mem (List.mem_of_getElem? h)
    rw [hst, List.flatMap_append, List.flatMap_cons]
    exact (List.sublist_append_left _ _).trans (List.sublist_append_right _ _)

/-! ### Writing HTML -/

theorem opens_closes (n : Node) :
    (n.opens = .error .keyError ∧ n.klass = .list none) ∨ ∃ a c, n.opens = .ok a ∧ n.closes = .ok c ∧
      (∀ b, Balanced b → Balanced (a ++ b ++ c)) ∧
      (n.klass = .text → a = [.text n.text] ∧ c = [.text ['\n']]) ∧
      (n.klass ≠ .text → shown a = [] ∧ shown c = []) := by
  have hw : ∀ t b, Balanced b → Balanced ([.opening t] ++ b ++ [.closing t]) := fun t b h => .wrap t b h
  have hn : ∀ b, Balanced b → Balanced ([] ++ b ++ []) := fun b h => by simpa using h
  have hs : ∀ t b, Balanced b → Balanced ([.single t] ++ b ++ []) := fun t b h => by
    rw [List.append_nil]; exact .append _ _ (.single t) h
  rcases n with ⟨k, p, ch, tx⟩
  cases k
  case list d =>
    cases d with
    | none => exact Or.inl ⟨rfl, rfl⟩
    | some d => exact Or.inr ⟨_, _, rfl, rfl, hw _, (fun h => by cases h), fun _ => ⟨rfl, rfl⟩⟩
  case text =>
    refine Or.inr ⟨_, _, rfl, rfl, fun b h => ?_, fun _ => ⟨rfl, rfl⟩, fun h => absurd rfl h⟩
    exact .append _ _ (.append _ _ (.text _) h) (.text _)
  case blockQuote =>
    refine Or.inr ⟨_, _, rfl, rfl, fun b h => ?_, (fun h => by cases h), fun _ => ⟨rfl, rfl⟩⟩
    have := hw t!"blockquote" _ (hw t!"p" _ h)
    simpa using this
  all_goals first
    | exact Or.inr ⟨_, _, rfl, rfl, hw _, (fun h => by cases h), fun _ => ⟨rfl, rfl⟩⟩
    | exact Or.inr ⟨_, _, rfl, rfl, hn, (fun h => by cases h), fun _ => ⟨rfl, rfl⟩⟩
    | exact Or.inr ⟨_, _, rfl, rfl, hs _, (fun h => by cases h), fun _ => ⟨rfl, rfl⟩⟩

theorem shown_append (a b : List Tok) : shown (a ++ b) = shown a ++ shown b := by
  induction a with
  | nil => rfl
  | cons x a ih => cases x <;> simp [shown, ih]

/-- What `accept` gives. -/
def AcceptOk (e : Editor) (r : Py (List Tok)) (t : Text) : Prop :=
  (r = .error .keyError ∧ ∃ n ∈ e.nodes, n.klass = .list none) ∨
  ∃ b, r = .ok b ∧ Balanced b ∧ withoutEnds (shown b) = withoutEnds t

theorem acceptAll_ok (e : Editor) (f : Nat → Py (List Tok)) (g : Nat → Text) (is : List Nat)
    (h : ∀ i ∈ is, AcceptOk e (f i) (g i)) : AcceptOk e (acceptAll f is) (is.map g).flatten := by
  induction is with
  | nil => exact Or.inr ⟨[], rfl, .nil, rfl⟩
  | cons i is ih =>
    unfold acceptAll
    rcases h i (by simp) with ⟨h1, h2⟩ | ⟨a, h1, h2, h3⟩
    · rw [h1]; exact Or.inl ⟨rfl, h2⟩
    · rw [h1]
      rcases ih (fun j hj => h j (by simp [hj])) with ⟨k1, k2⟩ | ⟨b, k1, k2, k3⟩
      · rw [k1]; exact Or.inl ⟨rfl, k2⟩
      · rw [k1]
        refine Or.inr ⟨a ++ b, rfl, .append _ _ h2 k2, ?_⟩
        simp only [withoutEnds, shown_append, List.filter_append, List.map_cons, List.flatten_cons] at h3 k3 ⊢
        rw [h3, k3]

theorem accept_ok (e : Editor) (hi : DInv e) (fuel i : Nat) (h1 : i < e.nodes.length)
    (h2 : e.nodes.length < fuel + i) : AcceptOk e (e.accept fuel i) (textOf e fuel i) := by
  induction fuel generalizing i with
  | zero => omega
  | succ fuel ih =>
    unfold Editor.accept textOf
    have hg := List.getElem?_eq_getElem h1
    rw [hg]
    dsimp only
    have hall := acceptAll_ok e (e.accept fuel) (textOf e fuel) e.nodes[i].children (fun j hj => by
      have := hi.children i _ hg j hj
      exact ih j this.2 (by omega))
    rcases opens_closes e.nodes[i] with ⟨ho, hk⟩ | ⟨a, c, ho, hc, hb, hT, hN⟩
    · rw [ho]
      exact Or.inl ⟨rfl, _, List.getElem_mem h1, hk⟩
    · rw [ho]
      dsimp only
      rcases hall with ⟨k1, k2⟩ | ⟨b, k1, k2, k3⟩
      · rw [k1]; exact Or.inl ⟨rfl, k2⟩
      · rw [k1, hc]
        refine Or.inr ⟨a ++ b ++ c, rfl, hb b k2, ?_⟩
        by_cases hk : e.nodes[i].klass = .text
        · obtain ⟨rfl, rfl⟩ := hT hk
          simp only [withoutEnds, shown_append, List.filter_append] at k3 ⊢
          rw [k3]
          simp [shown]
        · obtain ⟨ha, hc'⟩ := hN hk
          have := hi.texts i _ hg hk
          simp only [withoutEnds, shown_append, List.filter_append] at k3 ⊢
          rw [k3, ha, hc', this]
          simp

/-! ### The order of the nodes -/

/-- The nodes in the order of the document. -/
def order (e : Editor) : Nat → Nat → List Nat
  | 0, _ => []
  | fuel + 1, i =>
    match e.nodes[i]? with
    | none => []
    | some n => i :: (n.children.map (order e fuel)).flatten

/-- The text of one node. -/
def nodeText (e : Editor) (i : Nat) : Text := (e.nodes[i]?.map (·.text)).getD []

theorem textOf_order (e : Editor) (fuel i : Nat) : textOf e fuel i = (order e fuel i).flatMap (nodeText e) := by
  induction fuel generalizing i with
  | zero => rfl
  | succ fuel ih =>
    unfold textOf order
    cases h : e.nodes[i]? with
    | none => rfl
    | some n =>
      dsimp only
      rw [List.flatMap_cons]
      congr 1
      · simp [nodeText, h]
      · have : ∀ l : List Nat, (l.map (textOf e fuel)).flatten =
            ((l.map (order e fuel)).flatten).flatMap (nodeText e) := by
          intro l
          induction l with
          | nil => rfl
          | cons j l ihl => simp only [List.map_cons, List.flatten_cons, List.flatMap_append, ihl, ih j]
        exact this _

/-- `c` is reached from `x` by going to the last child again and again. -/
inductive Up (e : Editor) : Nat → Nat → Prop where
  | here (c : Nat) : Up e c c
  | up (q x c : Nat) (n : Node) (init : List Nat) : e.nodes[q]? = some n → n.children = init ++ [x] →
      Up e x c → Up e q c

theorem up_trans {e : Editor} {a b c : Nat} (h1 : Up e a b) (h2 : Up e b c) : Up e a c := by
  induction h1 with
  | here => exact h2
  | up q x c n init hn hc _ ih => exact .up q x _ n init hn hc (ih h2)

theorem up_le {e : Editor} (hi : DInv e) {a c : Nat} (h : Up e a c) : a ≤ c := by
  induction h with
  | here => omega
  | up q x c n init hn hc _ ih =>
    have := hi.children q n hn x (by rw [hc]; simp)
    omega

theorem up_congr {e e' : Editor} (hi : DInv e) {a c : Nat}
    (hs : ∀ (q : Nat) n, q < c → e.nodes[q]? = some n → ∃ n', e'.nodes[q]? = some n' ∧ n'.children = n.children)
    (h : Up e a c) : Up e' a c := by
  induction h with
  | here => exact .here _
  | up q x c n init hn hch hxc ih =>
    have := up_le hi hxc
    have := hi.children q n hn x (by rw [hch]; simp)
    obtain ⟨n', h1, h2⟩ := hs q n (by omega) hn
    exact .up q x c n' init h1 (by rw [h2]; exact hch) (ih hs)

/-- The last step of the way. -/
theorem up_last {e : Editor} {a c : Nat} (h : Up e a c) :
    a = c ∨ ∃ q n init, Up e a q ∧ e.nodes[q]? = some n ∧ n.children = init ++ [c] := by
  induction h with
  | here => exact Or.inl rfl
  | up q x c n init hn hc _ ih =>
    rcases ih with rfl | ⟨q', n', init', h1, h2, h3⟩
    · exact Or.inr ⟨q, n, init, .here q, hn, hc⟩
    · exact Or.inr ⟨q', n', init', .up q x q' n init hn hc h1, h2, h3⟩

theorem up_mem (e : Editor) (hi : DInv e) {x c : Nat} (h : Up e x c) (hc : c < e.nodes.length) (fuel : Nat)
    (hf : e.nodes.length < fuel + x) : c ∈ order e fuel x := by
  induction h generalizing fuel with
  | here c =>
    cases fuel with
    | zero => omega
    | succ fuel =>
      unfold order
      rw [List.getElem?_eq_getElem hc]
      simp
  | up q x c n init hn hch _ ih =>
    have hx := hi.children q n hn x (by rw [hch]; simp)
    cases fuel with
    | zero => have := (List.getElem?_eq_some_iff.1 hn).1; omega
    | succ fuel =>
      unfold order
      rw [hn]
      simp only [hch, List.map_append, List.map_cons, List.map_nil, List.flatten_append, List.flatten_cons,
        List.flatten_nil, List.append_nil, List.mem_cons, List.mem_append]
      exact Or.inr (Or.inr (ih hc fuel (by omega)))

theorem up_getLast (e : Editor) (hi : DInv e) {x c : Nat} (h : Up e x c) (n : Node) (hc : e.nodes[c]? = some n)
    (hl : n.children = []) (fuel : Nat) (hf : e.nodes.length < fuel + x) :
    (order e fuel x).getLast? = some c := by
  induction h generalizing fuel with
  | here c =>
    cases fuel with
    | zero => have := (List.getElem?_eq_some_iff.1 hc).1; omega
    | succ fuel =>
      unfold order
      rw [hc]
      simp [hl]
  | up q x c m init hn hch _ ih =>
    have hx := hi.children q m hn x (by rw [hch]; simp)
    cases fuel with
    | zero => have := (List.getElem?_eq_some_iff.1 hn).1; omega
    | succ fuel =>
      have := ih hc fuel (by omega)
      unfold order
      rw [hn]
      simp only [hch, List.map_append, List.map_cons, List.map_nil, List.flatten_append, List.flatten_cons,
        List.flatten_nil, List.append_nil]
      rw [← List.cons_append, List.getLast?_append, this]
      rfl

/-- A change of node `c` does not matter below nodes that do not have it below them. -/
theorem order_frame (e e' : Editor) (hi : DInv e) (c : Nat)
    (he : ∀ i, i < e.nodes.length → i ≠ c → e'.nodes[i]? = e.nodes[i]?) (fuel y : Nat)
    (hy : y < e.nodes.length) (h : c ∉ order e fuel y) : order e' fuel y = order e fuel y := by
  induction fuel generalizing y with
  | zero => rfl
  | succ fuel ih =>
    have hg := List.getElem?_eq_getElem hy
    unfold order at h ⊢
    rw [hg] at h
    simp only [List.mem_cons, List.mem_flatten, List.mem_map, not_or, not_exists, not_and] at h
    rw [he y hy (fun hc => h.1 hc.symm), hg]
    dsimp only
    congr 2
    refine List.map_congr_left fun j hj => ih j (hi.children y _ hg j hj).2 ?_
    intro hc
    exact h.2 (order e fuel j) ⟨j, hj, rfl⟩ hc

theorem order_push (e e' : Editor) (hi : DInv e) (c : Nat) (hcl : c < e.nodes.length)
    (he : ∀ i, i < e.nodes.length → i ≠ c → e'.nodes[i]? = e.nodes[i]?)
    (hc : ∀ n, e.nodes[c]? = some n → ∃ n', e'.nodes[c]? = some n' ∧ n'.children = n.children ++ [e.nodes.length])
    (hl : ∃ n, e'.nodes[e.nodes.length]? = some n ∧ n.children = [])
    {x : Nat} (h : Up e x c) (fuel : Nat) (hf : e.nodes.length < fuel + x) (hn : (order e fuel x).Nodup) :
    order e' fuel x = order e fuel x ++ [e.nodes.length] := by
  induction h generalizing fuel with
  | here c =>
    cases fuel with
    | zero => omega
    | succ fuel =>
      have hg := List.getElem?_eq_getElem hcl
      obtain ⟨n', h1, h2⟩ := hc _ hg
      unfold order at hn ⊢
      rw [hg] at hn
      rw [h1, hg]
      simp only [h2, List.map_append, List.map_cons, List.map_nil, List.flatten_append, List.flatten_cons,
        List.flatten_nil, List.append_nil, List.cons_append]
      have hnew : order e' fuel e.nodes.length = [e.nodes.length] := by
        cases fuel with
        | zero => omega
        | succ fuel =>
          obtain ⟨n, k1, k2⟩ := hl
          unfold order
          rw [k1]
          simp [k2]
      rw [hnew]
      congr 3
      refine List.map_congr_left fun j hj => order_frame e e' hi c he fuel j (hi.children c _ hg j hj).2 ?_
      intro hcj
      exact (List.nodup_cons.1 hn).1 (List.mem_flatten.2 ⟨_, List.mem_map.2 ⟨j, hj, rfl⟩, hcj⟩)
  | up q x c n init hq hch hup ih =>
    have hx := hi.children q n hq x (by rw [hch]; simp)
    have hxc := up_le hi hup
    have hql := (List.getElem?_eq_some_iff.1 hq).1
    cases fuel with
    | zero => omega
    | succ fuel =>
      have hmem := up_mem e hi hup hcl fuel (by omega)
      unfold order at hn ⊢
      rw [hq] at hn
      rw [he q hql (by omega), hq]
      simp only [hch, List.map_append, List.map_cons, List.map_nil, List.flatten_append, List.flatten_cons,
        List.flatten_nil, List.append_nil] at hn ⊢
      have hn' := (List.nodup_cons.1 hn).2
      rw [List.nodup_append] at hn'
      rw [ih hcl he hc fuel (by omega) hn'.2.1]
      have : init.map (order e' fuel) = init.map (order e fuel) := by
        refine List.map_congr_left fun j hj => order_frame e e' hi c he fuel j
          (hi.children q n hq j (by rw [hch]; simp [hj])).2 ?_
        intro hcj
        exact hn'.2.2 c (List.mem_flatten.2 ⟨_, List.mem_map.2 ⟨j, hj, rfl⟩, hcj⟩) c hmem rfl
      rw [this]
      simp

/-- Only the children matter for the order. -/
theorem order_congr (e e' : Editor) (h : ∀ i : Nat, e'.nodes[i]?.map (·.children) = e.nodes[i]?.map (·.children))
    (fuel i : Nat) : order e' fuel i = order e fuel i := by
  induction fuel generalizing i with
  | zero => rfl
  | succ fuel ih =>
    unfold order
    have := h i
    cases h1 : e.nodes[i]? with
    | none =>
      rw [h1] at this
      cases h2 : e'.nodes[i]? with
      | none => rfl
      | some n => rw [h2] at this; simp at this
    | some n =>
      rw [h1] at this
      cases h2 : e'.nodes[i]? with
      | none => rw [h2] at this; simp at this
      | some n' =>
        rw [h2] at this
        simp only [Option.map_some, Option.some.injEq] at this
        dsimp only
        rw [this]
        congr 2
        exact List.map_congr_left fun j _ => ih j

/-! ### Direct operations -/

structure XInv (e : Editor) : Prop where
  inv : DInv e
  parents : ∀ (i j : Nat) (n m : Node), e.nodes[i]? = some n → e.nodes[j]? = some m → j ∈ n.children →
    m.parent = some i
  leaves : ∀ (i : Nat) (n : Node), e.nodes[i]? = some n → n.klass = .text → n.children = []
  here : ∀ c, e.current = some c → Up e 0 c ∧ ∀ n, e.nodes[c]? = some n → n.klass ≠ .text
  order : ∀ fuel, e.nodes.length < fuel → order e fuel 0 = List.range e.nodes.length

theorem start_xinv : XInv Editor.start := by
  have hone : ∀ (i : Nat) n, Editor.start.nodes[i]? = some n → i = 0 ∧ n = ⟨.root, none, [], []⟩ := by
    intro i n h
    cases i with
    | zero => simp [Editor.start] at h; exact ⟨rfl, h.symm⟩
    | succ i => simp [Editor.start] at h
  refine ⟨start_inv, ?_, ?_, ?_, ?_⟩
  · intro i j n m h _ hj; rw [(hone i n h).2] at hj; simp at hj
  · intro i n h _; rw [(hone i n h).2]
  · intro c h
    cases h
    exact ⟨.here 0, fun n hn => by rw [(hone 0 n hn).2]; decide⟩
  · intro fuel h
    cases fuel with
    | zero => omega
    | succ fuel => rfl

/-- The text of all nodes, in the order of the document. -/
theorem xinv_content (e : Editor) (hx : XInv e) : content e = e.nodes.flatMap (·.text) := by
  unfold content
  rw [textOf_order, hx.order _ (by omega)]
  have : ∀ l : List Node, (List.range l.length).flatMap (fun i => (l[i]?.map (·.text)).getD []) = l.flatMap (·.text) := by
    intro l
    induction l with
    | nil => rfl
    | cons n l ih =>
      rw [List.length_cons, List.range_succ_eq_map, List.flatMap_cons, List.flatMap_cons, List.flatMap_map]
      congr 1
  exact this e.nodes

theorem push_xinv (e : Editor) (hx : XInv e) (c : Nat) (hcur : e.current = some c) (k : Klass) (t : Text)
    (hk : k ≠ .root) (ht : k ≠ .text → t = [])
    (ha : k = .text ∨ ∀ n, e.nodes[c]? = some n → n.klass.accepts k = true)
    (cur : Nat) (hc : cur = c ∨ (cur = e.nodes.length ∧ k ≠ .text)) :
    XInv ⟨e.nodes.modify c (fun n => { n with children := n.children ++ [e.nodes.length] }) ++
      [⟨k, some c, [], t⟩], some cur⟩ := by
  have hi := hx.inv
  have hcl := hi.current c hcur
  obtain ⟨hup, hct⟩ := hx.here c hcur
  have hinv := push_inv e hi c hcl k hk c hcl t ht ha (some cur) (fun x h => by cases h; omega)
  revert hinv
  generalize hE : (⟨e.nodes.modify c (fun n => { n with children := n.children ++ [e.nodes.length] }) ++
      [⟨k, some c, [], t⟩], some cur⟩ : Editor) = e'
  intro hinv
  have hget : ∀ (i : Nat) n, e'.nodes[i]? = some n ↔
      (∃ m, e.nodes[i]? = some m ∧ n = if i = c then { m with children := m.children ++ [e.nodes.length] } else m) ∨
      (i = e.nodes.length ∧ n = ⟨k, some c, [], t⟩) := by
    intro i n
    rw [← hE]
    exact modify_get _ _ _ _ _ _
  have hsame : ∀ i, i < e.nodes.length → i ≠ c → e'.nodes[i]? = e.nodes[i]? := by
    intro i hil hic
    rw [List.getElem?_eq_getElem hil]
    exact (hget i _).2 (Or.inl ⟨_, List.getElem?_eq_getElem hil, by rw [if_neg hic]⟩)
  have hat : ∀ n, e.nodes[c]? = some n →
      e'.nodes[c]? = some { n with children := n.children ++ [e.nodes.length] } := by
    intro n hn
    exact (hget c _).2 (Or.inl ⟨n, hn, by rw [if_pos rfl]⟩)
  have hlast : e'.nodes[e.nodes.length]? = some ⟨k, some c, [], t⟩ := (hget _ _).2 (Or.inr ⟨rfl, rfl⟩)
  have hlen : e'.nodes.length = e.nodes.length + 1 := by rw [← hE]; simp
  have hup' : ∀ x, Up e x c → Up e' x c := by
    intro x h
    exact up_congr hi (fun q n hq hn => ⟨n, by rw [hsame q (by omega) (by omega)]; exact hn, rfl⟩) h
  refine ⟨hinv, ?_, ?_, ?_, ?_⟩
  · intro i j n m hn hm hj
    rcases (hget i n).1 hn with ⟨n', h1, rfl⟩ | ⟨_, rfl⟩
    · rcases (hget j m).1 hm with ⟨m', h2, rfl⟩ | ⟨hjl, rfl⟩
      · have hjl := (List.getElem?_eq_some_iff.1 h2).1
        have : j ∈ n'.children := by
          split at hj
          · simp only [List.mem_append, List.mem_singleton] at hj
            rcases hj with hj | hj
            · exact hj
            · omega
          · exact hj
        have := hx.parents i j n' m' h1 h2 this
        split <;> exact this
      · split at hj
        · next hic => rw [hic]
        · have := hi.children i n' h1 j hj
          omega
    · simp at hj
  · intro i n hn hnt
    rcases (hget i n).1 hn with ⟨n', h1, rfl⟩ | ⟨_, rfl⟩
    · split at hnt
      · next hic => subst hic; exact absurd hnt (hct n' h1)
      · next hic => rw [if_neg hic]; exact hx.leaves i n' h1 hnt
    · rfl
  · intro x hxc
    have hxc' : x = cur := by rw [← hE] at hxc; cases hxc; rfl
    subst hxc'
    rcases hc with rfl | ⟨rfl, hkt⟩
    · refine ⟨hup' 0 hup, fun n hn => ?_⟩
      rcases (hget _ n).1 hn with ⟨m, h1, rfl⟩ | ⟨h, _⟩
      · rw [if_pos rfl]; exact hct m h1
      · omega
    · refine ⟨up_trans (hup' 0 hup) (.up c _ _ _ _ (hat _ (List.getElem?_eq_getElem hcl)) rfl (.here _)), ?_⟩
      intro n hn
      rw [hlast] at hn
      cases hn
      exact hkt
  · intro fuel hf
    rw [hlen] at hf ⊢
    rw [order_push e e' hi c hcl hsame (fun n hn => ⟨_, hat n hn, rfl⟩) ⟨_, hlast, rfl⟩ hup fuel (by omega)
      (by rw [hx.order fuel (by omega)]; exact List.nodup_range), hx.order fuel (by omega), List.range_succ]

theorem flatMap_text_push (l : List Node) (c x : Nat) :
    (l.modify c fun n => { n with children := n.children ++ [x] }).flatMap (·.text) = l.flatMap (·.text) := by
  induction l generalizing c with
  | nil => simp
  | cons n l ih =>
    cases c with
    | zero => simp
    | succ c => simp only [List.modify_succ_cons, List.flatMap_cons, ih c]

theorem flatMap_text_last (l : List Node) (c : Nat) (h : c + 1 = l.length) (t : Text) :
    (l.modify c fun n => { n with text := n.text ++ t }).flatMap (·.text) = l.flatMap (·.text) ++ t := by
  induction l generalizing c with
  | nil => simp at h
  | cons n l ih =>
    cases c with
    | zero =>
      have : l = [] := by simpa using h.symm
      subst this
      simp
    | succ c =>
      simp only [List.modify_succ_cons, List.flatMap_cons, ih c (by simpa using h), List.append_assoc]

theorem up_climb (e : Editor) (hx : XInv e) (f : Node → Bool) (fuel : Nat) (s : Option Nat)
    (hs : ∀ c, s = some c → Up e 0 c) (i : Nat) (h : e.climb f fuel s = .ok (some i)) : Up e 0 i := by
  induction fuel generalizing s with
  | zero => cases s <;> simp [Editor.climb] at h
  | succ fuel ih =>
    cases s with
    | none => simp [Editor.climb] at h
    | some c =>
      unfold Editor.climb at h
      cases hc : e.nodes[c]? with
      | none => rw [hc] at h; simp at h
      | some n =>
        rw [hc] at h
        dsimp only at h
        split at h
        · cases h; exact hs _ rfl
        · refine ih n.parent (fun p hp => ?_) h
          rcases up_last (hs c rfl) with rfl | ⟨q, m, init, h1, h2, h3⟩
          · obtain ⟨m, hm, _, hmp⟩ := hx.inv.root
            rw [hc] at hm
            cases hm
            rw [hmp] at hp
            simp at hp
          · have := hx.parents q c m n h2 hc (by rw [h3]; simp)
            rw [hp] at this
            cases this
            exact h1

theorem append_direct (e : Editor) (k : Klass) (c : Nat) (n : Node)
    (hc : e.current = some c) (hn : e.nodes[c]? = some n) (ha : n.klass.accepts k = true)
    (e' : Editor) (i : Nat) (h : e.append k = .ok (e', i)) :
    k ≠ .root ∧ i = e.nodes.length ∧
    e' = ⟨e.nodes.modify c (fun n => { n with children := n.children ++ [e.nodes.length] }) ++
        [⟨k, some c, [], []⟩], some c⟩ := by
  unfold Editor.append at h
  by_cases hr : k = .root
  · simp [hr] at h
  · rw [if_neg hr, hc] at h
    unfold Editor.climb at h
    rw [hn] at h
    dsimp only at h
    rw [if_pos ha] at h
    cases h
    exact ⟨hr, rfl, rfl⟩

theorem apply_direct (e e' : Editor) (hx : XInv e) (o : Op) (hd : Direct e o) (h : e.apply o = .ok e') :
    XInv e' ∧ content e' = content e ++ typed [o] := by
  have hi := hx.inv
  cases o with
  | enter k =>
    obtain ⟨hk, c, n, hc, hn, ha⟩ := hd
    simp only [Editor.apply, Editor.enter] at h
    cases hap : e.append k with
    | error x => rw [hap] at h; simp at h
    | ok r =>
      rw [hap] at h
      cases h
      obtain ⟨hr, h1, h2⟩ := append_direct e k c n hc hn ha r.1 r.2 hap
      have := push_xinv e hx c hc k [] hr (fun _ => rfl) (Or.inr fun m hm => by rw [hn] at hm; cases hm; exact ha)
        e.nodes.length (Or.inr ⟨rfl, hk⟩)
      rw [h2, h1]
      refine ⟨this, ?_⟩
      rw [xinv_content _ this, xinv_content e hx]
      simp [flatMap_text_push, typed]
  | append k =>
    obtain ⟨hk, c, n, hc, hn, ha⟩ := hd
    simp only [Editor.apply] at h
    cases hap : e.append k with
    | error x => rw [hap] at h; simp at h
    | ok r =>
      rw [hap] at h
      cases h
      obtain ⟨hr, h1, h2⟩ := append_direct e k c n hc hn ha r.1 r.2 hap
      have := push_xinv e hx c hc k [] hr (fun _ => rfl) (Or.inr fun m hm => by rw [hn] at hm; cases hm; exact ha)
        c (Or.inl rfl)
      rw [h2]
      refine ⟨this, ?_⟩
      rw [xinv_content _ this, xinv_content e hx]
      simp [flatMap_text_push, typed]
  | leave k =>
    have hinv := apply_inv e e' hi (.leave k) h
    simp only [Editor.apply, Editor.leave] at h
    cases hcl : e.climb (fun n => n.klass.isA k) (e.nodes.length + 1) e.current with
    | error x => rw [hcl] at h; simp at h
    | ok r =>
      rw [hcl] at h
      cases r with
      | none => cases h; exact ⟨hx, by simp [typed]⟩
      | some i =>
        cases h
        refine ⟨⟨hinv, hx.parents, hx.leaves, ?_, ?_⟩, ?_⟩
        · intro c hc
          have hup := up_climb e hx _ _ e.current (fun c hc => (hx.here c hc).1) i hcl
          simp only [Editor.parentOf] at hc
          cases hn : e.nodes[i]? with
          | none => rw [hn] at hc; simp at hc
          | some n =>
            rw [hn] at hc
            simp only [Option.bind_some] at hc
            rcases up_last hup with rfl | ⟨q, m, init, h1, h2, h3⟩
            · obtain ⟨m, hm, _, hmp⟩ := hi.root
              rw [hn] at hm
              cases hm
              rw [hmp] at hc
              simp at hc
            · have := hx.parents q i m n h2 hn (by rw [h3]; simp)
              rw [hc] at this
              cases this
              refine ⟨?_, fun n' hn' ht => ?_⟩
              · exact up_congr hi (fun _ n _ hn => ⟨n, hn, rfl⟩) h1
              · rw [h2] at hn'
                cases hn'
                rw [hx.leaves _ _ h2 ht] at h3
                simp at h3
        · intro fuel hf
          rw [← hx.order fuel hf]
          exact order_congr e { e with current := e.parentOf i } (fun _ => rfl) fuel 0
        · have : ∀ fuel j, textOf { e with current := e.parentOf i } fuel j = textOf e fuel j := by
            intro fuel
            induction fuel with
            | zero => intro j; rfl
            | succ fuel ih =>
              intro j
              unfold textOf
              have : textOf { e with current := e.parentOf i } fuel = textOf e fuel := funext ih
              rw [this]
          simp only [content, typed, List.append_nil]
          exact this _ _
  | text t =>
    have hinv := apply_inv e e' hi (.text t) h
    simp only [Editor.apply, Editor.appendText] at h
    cases hc : e.current with
    | none => rw [hc] at h; simp at h
    | some c =>
      have hcl := hi.current c hc
      have hg := List.getElem?_eq_getElem hcl
      rw [hc, Option.bind_some, hg] at h
      simp only [Option.map_some] at h
      have hpush := push_xinv e hx c hc .text t (by decide) (fun h => absurd rfl h) (Or.inl rfl) c (Or.inl rfl)
      have hpc : content ⟨e.nodes.modify c (fun n => { n with children := n.children ++ [e.nodes.length] }) ++
          [⟨.text, some c, [], t⟩], some c⟩ = content e ++ typed [.text t] := by
        rw [xinv_content _ hpush, xinv_content e hx]
        simp [flatMap_text_push, typed]
      split at h
      · split at h
        · next i m hm hmt =>
          cases h
          have hlm : e.nodes[i]? = some m ∧ ∃ init, e.nodes[c].children = init ++ [i] := by
            cases hl : e.nodes[c].children.getLast? with
            | none => rw [hl] at hm; simp at hm
            | some j =>
              rw [hl] at hm
              cases hj : e.nodes[j]? with
              | none => simp [hj] at hm
              | some m' =>
                simp only [Option.bind_some, hj, Option.map_some, Option.some.injEq, Prod.mk.injEq] at hm
                rw [← hm.1, ← hm.2]
                exact ⟨hj, List.getLast?_eq_some_iff.1 hl⟩
          obtain ⟨him, init, hin⟩ := hlm
          have hup : Up e 0 i := up_trans (hx.here c hc).1 (.up c i i _ init hg hin (.here i))
          have hil := (List.getElem?_eq_some_iff.1 him).1
          have hlast := up_getLast e hi hup m him (hx.leaves i m him hmt) (e.nodes.length + 1) (by omega)
          rw [hx.order _ (by omega)] at hlast
          have hii : i + 1 = e.nodes.length := by
            cases hl : e.nodes.length with
            | zero => omega
            | succ k =>
              rw [hl, List.range_succ, List.getLast?_append] at hlast
              simp at hlast
              omega
          have hx' : XInv ⟨e.nodes.modify i fun m => { m with text := m.text ++ t }, some c⟩ := by
            have hback : ∀ (j : Nat) n, (e.nodes.modify i fun m => { m with text := m.text ++ t })[j]? = some n →
                ∃ m, e.nodes[j]? = some m ∧ n.klass = m.klass ∧ n.parent = m.parent ∧ n.children = m.children := by
              intro j n hn
              obtain ⟨m, h1, rfl⟩ := (modify_get' _ _ _ _ _).1 hn
              refine ⟨m, h1, ?_, ?_, ?_⟩ <;> split <;> rfl
            have hfwd : ∀ (j : Nat) m, e.nodes[j]? = some m → ∃ n, (e.nodes.modify i fun m => { m with text := m.text ++ t })[j]? = some n ∧
                n.children = m.children := by
              intro j m hm
              refine ⟨_, (modify_get' _ _ _ _ _).2 ⟨m, hm, rfl⟩, ?_⟩
              split <;> rfl
            refine ⟨hinv, ?_, ?_, ?_, ?_⟩
            · intro a b n m hn hm hb
              obtain ⟨n', k1, _, _, k4⟩ := hback a n hn
              obtain ⟨m', l1, _, l3, _⟩ := hback b m hm
              rw [l3]
              exact hx.parents a b n' m' k1 l1 (by rw [← k4]; exact hb)
            · intro a n hn hnt
              obtain ⟨n', k1, k2, _, k4⟩ := hback a n hn
              rw [k4]
              exact hx.leaves a n' k1 (by rw [← k2]; exact hnt)
            · intro x hxc
              cases hxc
              refine ⟨?_, fun n hn => ?_⟩
              · exact up_congr hi (fun q n _ hn => hfwd q n hn) (hx.here c hc).1
              · obtain ⟨n', k1, k2, _, _⟩ := hback c n hn
                rw [k2]
                exact (hx.here c hc).2 n' k1
            · intro fuel hf
              simp only [List.length_modify] at hf ⊢
              rw [← hx.order fuel hf]
              refine order_congr _ _ (fun j => ?_) fuel 0
              cases hj : e.nodes[j]? with
              | none =>
                have : (e.nodes.modify i fun m => { m with text := m.text ++ t })[j]? = none := by
                  simp [List.getElem?_modify, hj]
                rw [this]
              | some m =>
                obtain ⟨n, h1, h2⟩ := hfwd j m hj
                rw [h1]
                simp [h2]
          refine ⟨hx', ?_⟩
          rw [xinv_content _ hx', xinv_content e hx]
          simp only [typed, List.append_nil]
          exact flatMap_text_last e.nodes i hii t
        · cases h; exact ⟨hpush, hpc⟩
      · cases h; exact ⟨hpush, hpc⟩
  | remove i => exact hd.elim
  | done => exact hd.elim

theorem typed_cons (o : Op) (os : List Op) : typed (o :: os) = typed [o] ++ typed os := by
  cases o <;> simp [typed]

theorem run_direct (os : List Op) (e e' : Editor) (hx : XInv e) (hd : AllDirect e os) (h : e.run os = .ok e') :
    XInv e' ∧ content e' = content e ++ typed os := by
  induction os generalizing e with
  | nil => cases h; exact ⟨hx, by simp [typed]⟩
  | cons o os ih =>
    simp only [Editor.run] at h
    cases ha : e.apply o with
    | error x => rw [ha] at h; simp at h
    | ok e1 =>
      rw [ha] at h
      obtain ⟨h1, h2⟩ := apply_direct e e1 hx o hd.1 ha
      obtain ⟨h3, h4⟩ := ih e1 h1 (hd.2 e1 ha) h
      exact ⟨h3, by rw [h4, h2, typed_cons o os, List.append_assoc]⟩

end Bglib
