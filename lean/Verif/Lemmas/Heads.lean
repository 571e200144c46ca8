import Verif.Lemmas.Pattern
import Verif.Model.Css
/-
Helper lemmas: the first way in which a pattern matches.
-/
namespace Bglib
open Bglib.Img

/-- The first way in which `r` matches at `p` ends at `q`. -/
def Heads (r : Re) (p q : Place) : Prop := ∃ t, r.all p = q :: t

theorem heads_seq {a b : Re} {p q x : Place} (h : Heads a p q) (h' : Heads b q x) : Heads (.seq a b) p x := by
  obtain ⟨t, e⟩ := h
  obtain ⟨t', e'⟩ := h'
  exact ⟨t' ++ t.flatMap b.all, by simp [Re.all, e, e']⟩

theorem heads_eps (p : Place) : Heads .eps p p := ⟨[], rfl⟩

theorem heads_bol (r : Text) (g : List (Text × Text)) : Heads .bol ⟨true, r, g⟩ ⟨true, r, g⟩ := ⟨[], by simp [Re.all]⟩

theorem heads_set {s : CharSet} {c : Char} (h : s.mem c = true) (st : Bool) (r : Text) (g : List (Text × Text)) :
    Heads (.set s) ⟨st, c :: r, g⟩ ⟨false, r, g⟩ := ⟨[], by simp [Re.all, h]⟩

theorem heads_ch (c : Char) (st : Bool) (r : Text) (g : List (Text × Text)) :
    Heads (.ch c) ⟨st, c :: r, g⟩ ⟨false, r, g⟩ := heads_set (by simp [charSet_single]) st r g

theorem heads_lit (c : Char) (t : Text) (st : Bool) (r : Text) (g : List (Text × Text)) :
    Heads (.lit (c :: t)) ⟨st, c :: t ++ r, g⟩ ⟨false, r, g⟩ := by
  induction t generalizing c st with
  | nil => exact heads_ch c st r g
  | cons d t ih => exact heads_seq (heads_ch c st _ g) (ih d false)

/-- The text does not go on with a character of the set. -/
def Stops (s : CharSet) (r : Text) : Prop := ∀ c, r.head? = some c → s.mem c = false

theorem repAll_stop {s : CharSet} {r : Text} (hr : Stops s r) (n : Nat) (st : Bool) (g : List (Text × Text)) :
    repAll (Re.set s).all n 0 ⟨st, r, g⟩ = [⟨st, r, g⟩] := by
  cases n with
  | zero => simp [repAll]
  | succ n =>
    cases r with
    | nil => simp [repAll, Re.all]
    | cons c r =>
      have := hr c rfl
      simp [repAll, Re.all, this]

theorem repAll_set_cons {s : CharSet} {c : Char} (hc : s.mem c = true) (n min : Nat) (st : Bool) (w : Text)
    (g : List (Text × Text)) :
    repAll (Re.set s).all (n + 1) min ⟨st, c :: w, g⟩ =
      repAll (Re.set s).all n (min - 1) ⟨false, w, g⟩ ++ if min = 0 then [⟨st, c :: w, g⟩] else [] := by
  have : (Re.set s).all ⟨st, c :: w, g⟩ = [⟨false, w, g⟩] := by simp [Re.all, hc]
  rw [repAll, this]
  simp

theorem repAll_heads {s : CharSet} {r : Text} (hr : Stops s r) (u : Text) (hu : ∀ c ∈ u, s.mem c = true)
    (n min : Nat) (hn : u.length ≤ n) (hm : min ≤ u.length) (st : Bool) (g : List (Text × Text)) :
    ∃ t, repAll (Re.set s).all n min ⟨st, u ++ r, g⟩ = ⟨st && u.isEmpty, r, g⟩ :: t := by
  induction u generalizing n min st with
  | nil =>
    have : min = 0 := by simpa using hm
    subst this
    exact ⟨[], by simpa using repAll_stop hr n st g⟩
  | cons c u ih =>
    cases n with
    | zero => simp at hn
    | succ n =>
      obtain ⟨t, e⟩ := ih (fun x hx => hu x (by simp [hx])) n (min - 1) (by simpa using hn)
        (by simp at hm; omega) false
      have hc := hu c (by simp)
      refine ⟨t ++ if min = 0 then [⟨st, c :: (u ++ r), g⟩] else [], ?_⟩
      rw [List.cons_append, repAll_set_cons hc, e]
      simp

theorem heads_star {s : CharSet} {r : Text} (hr : Stops s r) (u : Text) (hu : ∀ c ∈ u, s.mem c = true)
    (st : Bool) (g : List (Text × Text)) :
    Heads (.star (.set s)) ⟨st, u ++ r, g⟩ ⟨st && u.isEmpty, r, g⟩ := by
  obtain ⟨t, e⟩ := repAll_heads hr u hu (u ++ r).length 0 (by simp) (by omega) st g
  exact ⟨t, by simpa [Re.star, Re.all] using e⟩

theorem heads_plus {s : CharSet} {r : Text} (hr : Stops s r) (u : Text) (hne : u ≠ [])
    (hu : ∀ c ∈ u, s.mem c = true) (st : Bool) (g : List (Text × Text)) :
    Heads (.plus (.set s)) ⟨st, u ++ r, g⟩ ⟨false, r, g⟩ := by
  have : 1 ≤ u.length := by
    cases u with
    | nil => exact absurd rfl hne
    | cons => simp
  obtain ⟨t, e⟩ := repAll_heads hr u hu (u ++ r).length 1 (by simp) this st g
  have hi : u.isEmpty = false := by simpa using hne
  exact ⟨t, by simpa [Re.plus, Re.all, hi] using e⟩

theorem heads_group {a : Re} {p q : Place} (n u : Text) (h : Heads a p q) (e : p.rest = u ++ q.rest) :
    Heads (.group n a) p ⟨q.start, q.rest, (n, u) :: q.groups⟩ := by
  obtain ⟨t, h⟩ := h
  exact ⟨_, by simp [Re.all, h, between_eq e]; rfl⟩

theorem heads_opt {a : Re} {p q : Place} (h : Heads a p q) (hl : q.rest.length < p.rest.length) :
    Heads a.opt p q := by
  obtain ⟨t, h⟩ := h
  refine ⟨(t.filter fun q => q.rest.length < p.rest.length) ++ [p], ?_⟩
  simp only [Re.opt, Re.all, Option.getD, repAll, h]
  simp [hl]

theorem heads_opt_none {a : Re} {p : Place} (h : a.all p = []) : Heads a.opt p p :=
  ⟨[], by simp [Re.opt, Re.all, repAll, h]⟩

theorem all_seq_nil {a b : Re} {p : Place} (h : a.all p = []) : (Re.seq a b).all p = [] := by simp [Re.all, h]

theorem all_set_nil {s : CharSet} {st : Bool} {r : Text} {g : List (Text × Text)} (h : Stops s r) :
    (Re.set s).all ⟨st, r, g⟩ = [] := by
  cases r with
  | nil => rfl
  | cons c r => simp [Re.all, h c rfl]

theorem all_plus_nil {s : CharSet} {st : Bool} {r : Text} {g : List (Text × Text)} (h : Stops s r) :
    (Re.plus (.set s)).all ⟨st, r, g⟩ = [] := by
  have := all_set_nil (st := st) (g := g) h
  cases r with
  | nil => simp [Re.plus, Re.all, repAll]
  | cons c r =>
    have h' := h c rfl
    simp [Re.plus, Re.all, repAll, h']

theorem all_group_nil {n : Text} {a : Re} {p : Place} (h : a.all p = []) : (Re.group n a).all p = [] := by
  simp [Re.all, h]

/-- Reading as much as possible of a set and then a character: the last occurrence of the character. -/
theorem repAll_last {s : CharSet} {c : Char} {v : Text} (g : List (Text × Text)) (F : Place → List Place)
    (hF : ∀ q : Place, q.rest <:+ v → F q = []) (u : Text) (hu : ∀ x ∈ u ++ c :: v, s.mem x = true)
    (n : Nat) (hn : u.length ≤ n) (st : Bool) (x : Place) (t : List Place)
    (hx : F ⟨st && u.isEmpty, c :: v, g⟩ = x :: t) :
    ∃ t', (repAll (Re.set s).all n 0 ⟨st, u ++ c :: v, g⟩).flatMap F = x :: t' := by
  induction u generalizing n st with
  | nil =>
    have hx' : F ⟨st, c :: v, g⟩ = x :: t := by simpa using hx
    cases n with
    | zero => exact ⟨t, by simp [repAll, hx']⟩
    | succ n =>
      have hc := hu c (by simp)
      refine ⟨t, ?_⟩
      have h0 : (repAll (Re.set s).all n 0 ⟨false, v, g⟩).flatMap F = [] := by
        rw [List.flatMap_eq_nil_iff]
        intro q hq
        refine hF q ?_
        have hq : q ∈ (Re.rep (.set s) 0 (some n)).all ⟨false, v, g⟩ := by simpa [Re.all] using hq
        obtain ⟨w, gs, e, _⟩ := all_reads _ _ _ hq
        exact ⟨w, e.symm⟩
      rw [List.nil_append, repAll_set_cons hc, List.flatMap_append, h0]
      simp [hx']
  | cons d u ih =>
    cases n with
    | zero => simp at hn
    | succ n =>
      obtain ⟨t', e⟩ := ih (fun y hy => hu y (List.mem_cons_of_mem _ hy)) n (by simpa using hn) false
        (by simpa using hx)
      have hd := hu d (by simp)
      exact ⟨t' ++ F ⟨st, d :: (u ++ c :: v), g⟩, by rw [List.cons_append, repAll_set_cons hd, List.flatMap_append, e]; simp⟩

theorem heads_last {s : CharSet} {c : Char} {v : Text} (n : Text) (u : Text)
    (hu : ∀ x ∈ u ++ c :: v, s.mem x = true) (hv : c ∉ v) (st : Bool) (g : List (Text × Text)) :
    Heads (.seq (.group n (.star (.set s))) (.ch c)) ⟨st, u ++ c :: v, g⟩ ⟨false, v, (n, u) :: g⟩ := by
  have := repAll_last (s := s) (c := c) (v := v) g
    (fun q => (Re.ch c).all ⟨q.start, q.rest, (n, between ⟨st, u ++ c :: v, g⟩ q) :: q.groups⟩)
    (by
      intro q hq
      apply all_set_nil
      intro x hx
      rcases h : CharSet.mem ⟨false, [(c, c)]⟩ x with _ | _
      · rfl
      · rw [charSet_single] at h
        subst h
        refine absurd (hq.subset ?_) hv
        exact List.mem_of_mem_head? (by simpa using hx))
    u hu (u ++ c :: v).length (by simp) st ⟨false, v, (n, u) :: g⟩ []
    (by
      have hb : between ⟨st, u ++ c :: v, g⟩ ⟨st && u.isEmpty, c :: v, g⟩ = u := between_eq rfl
      simp only [hb]
      simp [Re.ch, Re.all, charSet_single])
  obtain ⟨t', e⟩ := this
  refine ⟨t', ?_⟩
  rw [← e]
  simp only [Re.all, Re.star, List.flatMap_map, Option.getD]

/-! ### Searching -/

theorem searchFrom_heads {r : Re} {st : Bool} {s : Text} {q : Place} (h : Heads r ⟨st, s, []⟩ q) :
    searchFrom r st s = some q := by
  obtain ⟨t, h⟩ := h
  cases s <;> simp [searchFrom, h]

theorem search_heads {r : Re} {s : Text} {q : Place} (h : Heads r ⟨true, s, []⟩ q) :
    search r s = some q.groups := by simp [search, searchFrom_heads h]

theorem searchFrom_skip {r : Re} {st : Bool} {c : Char} {s : Text} (h : r.all ⟨st, c :: s, []⟩ = []) :
    searchFrom r st (c :: s) = searchFrom r false s := by simp [searchFrom, h]

end Bglib
