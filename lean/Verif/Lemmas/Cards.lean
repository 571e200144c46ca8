import Verif.Spec.Cards
import Verif.Lemmas.LayoutTree
/-
Elements that are drawn as images, and images chosen by the text of an element.
-/
namespace Bglib
open Spec Img

variable {rules : List Rule} {k : Ink} {anc : List Elem}

/-- An image in a box. -/
def cardIs (x y w h : Int) (flip : Bool) (file : Text) : List (Text × Option Value) :=
  boxIs x y w h ++ [(t!"image", strIs file), (t!"flip", some (.bool flip))]

/-- Nothing is drawn. -/
def blankIs : List (Text × Option Value) :=
  [(t!"background", none), (t!"image", none), (t!"color", none)]

theorem draw_blank {up : List Elem} (hl : looks up blankIs = true) (k : Ink) : drawElement k.scale up = .ok [] := by
  simp only [blankIs, looks_cons] at hl
  obtain ⟨h1, h2, h3, -⟩ := hl
  exact element_of (a := []) (back_none h1 k) (own_none h2 h3 k)

theorem own_image {up : List Elem} {c : Text} (hc : getAttr t!"image" up = strIs c) (k : Ink) :
    ownOps k.scale up = drawElem k.scale up := by
  unfold ownOps
  rw [has_of, has_of, hc]
  simp [strIs]

theorem paste_of {up : List Elem} {f : Bool} (h : getAttr t!"flip" up = some (.bool f)) (src : Text) (p s : Int × Int) :
    paste src up p s = .ok [.image src s f p] := by
  unfold paste
  simp only [bind, Except.bind, pure, Except.pure, flag_of h]

/-- The kinds of elements that are drawn as one image. -/
def isCard : EName → Bool
  | .resign | .chequer | .die => false
  | _ => true

theorem own_card {e : Elem} {up : List Elem} {x y w h : Int} {f : Bool} {u : Text}
    (hl : looks (e :: up) (cardIs x y w h f u) = true) (hu : u ≠ []) (hn : isCard e.name = true) (k : Ink) :
    ownOps k.scale (e :: up) = .ok [k.image x y w h f u] := by
  simp only [cardIs, looks_append, looks_cons] at hl
  obtain ⟨hb, h1, h2, -⟩ := hl
  rw [own_image h1]
  have hp := fun p s => paste_of h2 u p s
  have hfl := flag_of h2
  unfold drawElem
  dsimp only
  cases he : e.name <;> rw [he] at hn <;> simp only [isCard, Bool.false_eq_true] at hn <;> dsimp only <;>
    (first | unfold drawLabel | unfold drawCrawford | unfold drawField | unfold drawCube | unfold drawPoint | unfold drawBase) <;>
    simp only [bind, Except.bind, pure, Except.pure, box_is hb, truthy_of h1 hu, text_of h1, hp, hfl, Ink.image]

/-- An image without background. -/
theorem draw_card {e : Elem} {up : List Elem} {x y w h : Int} {f : Bool} {u : Text}
    (hl : looks (e :: up) (cardIs x y w h f u ++ [(t!"background", none)]) = true) (hu : u ≠ [])
    (hn : isCard e.name = true) (k : Ink) : drawElement k.scale (e :: up) = .ok [k.image x y w h f u] := by
  rw [looks_append, looks_cons] at hl
  exact element_of (a := []) (back_none hl.2.1 k) (own_card hl.1 hu hn k)

theorem draw_die_card {e : Elem} {up : List Elem} {x y w h : Int} {f : Bool} {u : Text}
    (hl : looks (e :: up) (cardIs x y w h f u ++ [(t!"background", none), (t!"diestyle", strIs t!"dot")]) = true)
    (hu : u ≠ []) (hn : e.name = .die) (k : Ink) : drawElement k.scale (e :: up) = .ok [k.image x y w h f u] := by
  simp only [cardIs, looks_append, looks_cons] at hl
  obtain ⟨⟨hb, h1, h2, -⟩, h3, h4, -⟩ := hl
  refine element_of (a := []) (back_none h3 k) ?_
  rw [own_image h1]
  have : drawElem k.scale (e :: up) = drawDie k.scale (e :: up) := by
    unfold drawElem; dsimp only
    rw [hn]
  rw [this]
  unfold drawDie
  simp only [bind, Except.bind, pure, Except.pure, box_is hb, lookup_of h4, truthy_of h1 hu, paste_of h2, Ink.image]

/-- Chequers that are one image. -/
theorem draw_chequer_card {e : Elem} {up : List Elem} {x y w h : Int} {f : Bool} {u : Text} {n : Int}
    (hl : looks (e :: up) (cardIs x y w h f u ++ [(t!"background", none), (t!"max_count", some (.int 1)),
      (t!"hide_count", some (.bool true))]) = true)
    (hu : u ≠ []) (hcr : boxReady up = true) (hn : e.name = .chequer) (hd : e.data = [pyStr n]) (h0 : 1 ≤ n) (k : Ink) :
    drawElement k.scale (e :: up) = .ok [k.image x y w h f u] := by
  simp only [cardIs, looks_append, looks_cons] at hl
  obtain ⟨⟨hb, h1, h2, -⟩, h3, h4, h5, -⟩ := hl
  refine element_of (a := []) (back_none h3 k) ?_
  rw [own_image h1]
  have : drawElem k.scale (e :: up) = drawChequer k.scale (e :: up) := by
    unfold drawElem; dsimp only
    rw [hn]
  rw [this]
  obtain ⟨co, hco⟩ := corner_ok k.scale (e :: up) hcr
  have hlab : ∀ q s, pileLabel (e :: up) n 1 q s = [] := by
    intro q s
    unfold pileLabel
    rw [flag_of h5]
    cases attrText? t!"font" (e :: up) <;> simp
  unfold drawChequer chequerMark
  simp only [bind, Except.bind, pure, Except.pure, box_is hb, truthy_of h1 hu, int_of h4, firstInt_of hd, flag_of h2,
    hco, hlab, show (min n 1).toNat = 1 by omega]
  rfl

/-! ### Checking a style -/

/-- The rule wants another ancestor. -/
def skipped (n : EName) (anc : List Elem) (r : Rule) : Bool :=
  match r.pattern.reverse with
  | p :: q :: ps =>
    (match p.attr with
      | none => true
      | some (a, t) => match attlist n a with
        | none => true
        | some c => isOk (c.kind.parse none t)) && decide (descend (q :: ps) anc.reverse = .ok false)
  | _ => false

theorem skipped_apply {n : EName} {r : Rule} (h : skipped n anc r = true) (e : Elem) (hn : e.name = n) :
    r.apply anc e = .ok e := by
  have hm : r.isMatch (anc ++ [e]) = .ok false := by
    unfold skipped at h
    unfold Rule.isMatch
    rw [List.reverse_append, List.reverse_cons, List.reverse_nil, List.nil_append, List.singleton_append]
    split at h
    · rename_i p q ps hp
      rw [hp]
      rw [Bool.and_eq_true, decide_eq_true_eq] at h
      dsimp only
      have hs : ∃ b, p.isMatch e = .ok b := by
        unfold Selector.isMatch
        by_cases hne : e.name.text = p.element
        · rw [if_pos hne]
          have ha : ∃ b, p.attrMatch e = .ok b := by
            unfold Selector.attrMatch
            cases hpa : p.attr with
            | none => exact ⟨_, rfl⟩
            | some x =>
              obtain ⟨a, t⟩ := x
              have h1 := h.1
              rw [hpa] at h1
              dsimp only at h1 ⊢
              cases e.get a with
              | none => exact ⟨_, rfl⟩
              | some v =>
                dsimp only
                rw [hn]
                cases hat : attlist n a with
                | none => exact ⟨_, rfl⟩
                | some c =>
                  rw [hat] at h1
                  dsimp only at h1 ⊢
                  cases hpr : c.kind.parse none t with
                  | error x => rw [hpr] at h1; simp [isOk] at h1
                  | ok w => exact ⟨_, rfl⟩
          obtain ⟨b, hb⟩ := ha
          rw [hb]
          cases b with
          | false => exact ⟨_, rfl⟩
          | true => cases p.data <;> exact ⟨_, rfl⟩
        · rw [if_neg hne]; exact ⟨_, rfl⟩
      obtain ⟨b, hb⟩ := hs
      rw [hb]
      cases b with
      | false => rfl
      | true => exact h.2
    · simp at h
  unfold Rule.apply
  rw [hm]

theorem rules_skip (rules : List Rule) (anc : List Elem) (e : Elem) (n : EName) (hn : e.name = n) :
    applyRules anc e (rules.filter fun r => !skipped n anc r) = applyRules anc e rules := by
  induction rules generalizing e with
  | nil => rfl
  | cons r rs ih =>
    by_cases hs : skipped n anc r = true
    · rw [List.filter_cons_of_neg (by simp [hs])]
      simp only [applyRules, skipped_apply hs e hn]
      exact ih e hn
    · rw [List.filter_cons_of_pos (by simp [hs])]
      simp only [applyRules]
      cases hr : r.apply anc e with
      | error x => rfl
      | ok e' => exact ih e' ((rule_keeps hr).1.trans hn)

/-- The rules that matter for a kind of element under these ancestors. -/
def relevant (rules : List Rule) (n : EName) (anc : List Elem) : List Rule :=
  (rules.filter (concerns n)).filter fun r => !skipped n anc r

theorem rules_relevant (rules : List Rule) (anc : List Elem) (e : Elem) (n : EName) (hn : e.name = n) :
    applyRules anc e (relevant rules n anc) = applyRules anc e rules := by
  unfold relevant
  rw [rules_skip _ _ _ _ hn, rules_filter rules anc e n hn]

/-- How elements of a kind look, by their text. -/
def leafCases (rules : List Rule) (n : EName) (attrs : List (Text × Value)) (tab : List (Text × List (Text × Option Value)))
    (d : List (Text × Option Value)) (anc : List Elem) : Bool :=
  let rs := relevant rules n anc
  (rs.flatMap (mentioned n)).all (fun t => (tab.map Prod.fst).contains t) &&
  !(tab.map Prod.fst).contains [] &&
  tab.all (fun x => match applyRules anc ⟨n, attrs, [x.1]⟩ rs with
    | .ok e => looks (e :: anc.reverse) x.2
    | .error _ => false) &&
  match applyRules anc ⟨n, attrs, [[]]⟩ rs with
  | .ok e => looks (e :: anc.reverse) d
  | .error _ => false

theorem leaf_cases {n : EName} {attrs : List (Text × Value)} {tab : List (Text × List (Text × Option Value))}
    {d : List (Text × Option Value)} (h : leafCases rules n attrs tab d anc = true) (x : Text) :
    ∃ e, applyRules anc ⟨n, attrs, [x]⟩ rules = .ok e ∧ e.name = n ∧ e.data = [x] ∧
      looks (e :: anc.reverse) ((tab.lookup x).getD d) = true := by
  unfold leafCases at h
  simp only [Bool.and_eq_true, List.all_eq_true, List.contains_iff_mem, Bool.not_eq_true'] at h
  obtain ⟨⟨⟨h1, h2⟩, h3⟩, h4⟩ := h
  cases hx : tab.lookup x with
  | some l =>
    have hm : (x, l) ∈ tab := by
      rw [List.lookup_eq_some_iff] at hx
      obtain ⟨a, b, rfl, -⟩ := hx
      simp
    have := h3 _ hm
    dsimp only at this
    cases hr : applyRules anc ⟨n, attrs, [x]⟩ (relevant rules n anc) with
    | error y => rw [hr] at this; simp at this
    | ok e =>
      rw [hr] at this
      rw [rules_relevant rules anc _ n rfl] at hr
      exact ⟨e, hr, (rules_keep hr).1, (rules_keep hr).2, this⟩
  | none =>
    have hm : x ∉ tab.map Prod.fst := by
      intro hm
      rw [List.lookup_eq_none_iff] at hx
      rw [List.mem_map] at hm
      obtain ⟨y, hy, rfl⟩ := hm
      have := hx y hy
      simp at this
    have h0 : [] ∉ tab.map Prod.fst := by
      intro h
      rw [← List.contains_iff_mem, h2] at h
      simp at h
    cases hr : applyRules anc ⟨n, attrs, [[]]⟩ (relevant rules n anc) with
    | error y => rw [hr] at h4; simp at h4
    | ok e =>
      rw [hr] at h4
      have hh := rules_data (relevant rules n anc) anc ⟨n, attrs, [[]]⟩ [x] (by
        intro r hr s hs he t ht
        have hm' : t ∈ (relevant rules n anc).flatMap (mentioned n) := by
          rw [List.mem_flatMap]
          refine ⟨r, hr, ?_⟩
          unfold mentioned
          rw [List.mem_filterMap]
          exact ⟨s, hs, by rw [if_pos he, ht]⟩
        have := h1 t hm'
        simp only [List.mem_singleton]
        constructor
        · rintro rfl; exact absurd this hm
        · rintro rfl; exact absurd this h0)
      rw [hr] at hh
      have hh' : applyRules anc ⟨n, attrs, [x]⟩ rules = .ok (withData [x] e) := by
        rw [← rules_relevant rules anc _ n rfl]
        exact hh
      exact ⟨withData [x] e, hh', (rules_keep hr).1, rfl, h4⟩

/-- A table of numbered entries. -/
def numbered {α : Type} (lo hi : Nat) (f : Nat → α) : List (Text × α) :=
  (List.range (hi + 1 - lo)).map fun j => (decimal (lo + j), f (lo + j))

theorem lookup_numbered {α : Type} (lo hi : Nat) (f : Nat → α) (n : Int) :
    (numbered lo hi f).lookup (pyStr n) = if (lo : Int) ≤ n ∧ n ≤ hi then some (f n.toNat) else none := by
  unfold numbered
  split
  · rename_i h
    obtain ⟨m, rfl⟩ := Int.eq_ofNat_of_zero_le (show 0 ≤ n by omega)
    have key : ∀ (l : List Nat) (j : Nat), j ∈ l →
        (l.map fun j => (decimal (lo + j), f (lo + j))).lookup (decimal (lo + j)) = some (f (lo + j)) := by
      intro l j hj
      induction l with
      | nil => simp at hj
      | cons a l ih =>
        rw [List.map_cons, List.lookup_cons]
        by_cases ha : j = a
        · subst ha; simp
        · have : (decimal (lo + j) == decimal (lo + a)) = false := by
            rw [beq_eq_false_iff_ne]
            intro h
            have := decimal_inj h
            omega
          rw [this]
          exact ih ((List.mem_cons.1 hj).resolve_left ha)
    have := key (List.range (hi + 1 - lo)) (m - lo) (List.mem_range.2 (by omega))
    rw [show lo + (m - lo) = m by omega] at this
    rw [pyStr_nat]
    exact this
  · rename_i h
    rw [List.lookup_eq_none_iff]
    intro p hp
    rw [List.mem_map] at hp
    obtain ⟨j, hj, rfl⟩ := hp
    rw [List.mem_range] at hj
    simp only [bne_iff_ne, ne_eq]
    intro e
    rw [← pyStr_nat] at e
    have := pyStr_inj e
    apply h
    omega

end Bglib
