import Verif.Lemmas.Heads
import Verif.Lemmas.Css
import Verif.Spec.HtmlCompare
/-
Helper lemmas: the tuples read from written HTML.
-/
namespace Bglib.Doc
open Bglib Bglib.Spec Bglib.Img

theorem attrName_mem {c : Char} (h : AttrNameChar c) : CharSet.mem ⟨false, attrNameChars⟩ c = true := by
  unfold AttrNameChar at h
  simp only [CharSet.mem, attrNameChars, List.any_cons, List.any_nil]
  rcases h with h | h <;> simp [h]

theorem element_mem {c : Char} (h : ElementChar c) : CharSet.mem ⟨false, elementChars⟩ c = true := by
  unfold ElementChar AttrNameChar at h
  simp only [CharSet.mem, elementChars, List.any_cons, List.any_nil]
  rcases h with (h | h) | h | rfl
  · simp [h]
  · simp [h]
  · simp [h]
  · decide

theorem attrValue_mem {c : Char} (h : AttrValueChar c) : CharSet.mem ⟨false, attrValueChars⟩ c = true := by
  unfold AttrValueChar AttrNameChar at h
  simp only [List.mem_cons, List.not_mem_nil, or_false] at h
  rcases h with (h | h) | h | rfl | rfl | rfl | rfl | rfl
  · simp [CharSet.mem, attrValueChars, h]
  · simp [CharSet.mem, attrValueChars, h]
  · simp [CharSet.mem, attrValueChars, h]
  all_goals decide

theorem textSet_mem (c : Char) : textSet.mem c = true ↔ c ≠ '<' ∧ c ≠ '>' ∧ c ≠ '&' := by
  have h1 := charSet_single '<' c
  have h2 := charSet_single '>' c
  have h3 := charSet_single '&' c
  simp only [CharSet.mem, List.any_cons, List.any_nil, Bool.or_false, bne_iff_ne, ne_eq] at h1 h2 h3
  unfold textSet CharSet.mem
  simp only [List.any_cons, List.any_nil, Bool.or_false, bne_iff_ne, ne_eq]
  rw [← h1, ← h2, ← h3]
  generalize (decide ('<' ≤ c) && decide (c ≤ '<')) = a
  generalize (decide ('>' ≤ c) && decide (c ≤ '>')) = b
  generalize (decide ('&' ≤ c) && decide (c ≤ '&')) = d
  cases a <;> cases b <;> cases d <;> decide

/-! ### Repetitions of a part -/

theorem repAll_more {f : Place → List Place} {p q x : Place} {t t' : List Place} {n min : Nat} (h : f p = q :: t)
    (hl : q.rest.length < p.rest.length) (hx : repAll f n (min - 1) q = x :: t') :
    ∃ t'', repAll f (n + 1) min p = x :: t'' := by
  rw [repAll, h]
  simp only [List.filter_cons, hl, decide_true, if_true, List.flatMap_cons, hx, List.cons_append]
  exact ⟨_, rfl⟩

theorem repAll_none {f : Place → List Place} {p : Place} {n : Nat} (h : f p = []) : repAll f n 0 p = [p] := by
  cases n with
  | zero => simp [repAll]
  | succ n => simp [repAll, h]

/-! ### Attributes -/

/-- An attribute as it is written. -/
def attrOf (x : Text × Text) : Text := x.1 ++ '=' :: '"' :: x.2 ++ ['"']

/-- The letters of the attribute are known. -/
def GoodPair (x : Text × Text) : Prop :=
  (x.1 ≠ [] ∧ ∀ c ∈ x.1, AttrNameChar c) ∧ (x.2 ≠ [] ∧ ∀ c ∈ x.2, AttrValueChar c)

theorem heads_htmlAttr {x : Text × Text} (hx : GoodPair x) (st : Bool) (r : Text) (g : List (Text × Text)) :
    Heads htmlAttrRe ⟨st, attrOf x ++ r, g⟩
      ⟨false, r, (t!"attribute", attrOf x) :: (t!"attrvalue", x.2) :: (t!"attrname", x.1) :: g⟩ := by
  obtain ⟨⟨n1, n2⟩, v1, v2⟩ := hx
  have e : attrOf x ++ r = x.1 ++ '=' :: '"' :: (x.2 ++ '"' :: r) := by simp [attrOf]
  refine heads_group (q := ⟨false, r, (t!"attrvalue", x.2) :: (t!"attrname", x.1) :: g⟩) _ _ ?_ rfl
  rw [e]
  refine heads_seq (heads_group (q := ⟨false, '=' :: '"' :: (x.2 ++ '"' :: r), g⟩) _ x.1
    (heads_plus (stops_cons (by decide)) x.1 n1 (fun c hc => attrName_mem (n2 c hc)) _ _) rfl) ?_
  refine heads_seq (heads_ch _ _ _ _) (heads_seq (heads_ch _ _ _ _) ?_)
  refine heads_seq (heads_group (q := ⟨false, '"' :: r, (t!"attrname", x.1) :: g⟩) _ x.2
    (heads_plus (stops_cons (by decide)) x.2 v1 (fun c hc => attrValue_mem (v2 c hc)) _ _) rfl) (heads_ch _ _ _ _)

/-- Names of groups inside of the list of attributes. -/
def Inner (g : List (Text × Text)) : Prop := ∀ y ∈ g, y.1 ∈ [t!"attribute", t!"attrvalue", t!"attrname"]

/-- The list as it is written behind the first blank. -/
def attrsText : List (Text × Text) → Text
  | [] => []
  | [x] => attrOf x
  | x :: y :: l => attrOf x ++ ' ' :: attrsText (y :: l)

theorem attr_stop {st : Bool} {c : Char} (hc : CharSet.mem ⟨false, attrNameChars⟩ c = false) (r : Text)
    (g : List (Text × Text)) : htmlAttrRe.all ⟨st, c :: r, g⟩ = [] :=
  all_group_nil (all_seq_nil (all_group_nil (all_plus_nil (stops_cons hc))))

theorem attr_end {st : Bool} (g : List (Text × Text)) : htmlAttrRe.all ⟨st, [], g⟩ = [] :=
  all_group_nil (all_seq_nil (all_group_nil (all_plus_nil stops_nil)))

theorem attrsText_head {x : Text × Text} (hx : GoodPair x) (l : List (Text × Text)) :
    ∃ c r, attrsText (x :: l) = c :: r ∧ AttrNameChar c := by
  obtain ⟨⟨n1, n2⟩, _⟩ := hx
  obtain ⟨n, v⟩ := x
  cases n with
  | nil => exact absurd rfl n1
  | cons c n =>
    cases l with
    | nil => exact ⟨c, _, rfl, n2 c (by simp)⟩
    | cons y l => exact ⟨c, _, rfl, n2 c (by simp)⟩

theorem rep_attrs (l : List (Text × Text)) (hl : ∀ x ∈ l, GoodPair x) (n : Nat) (hn : l.length ≤ n) (st : Bool)
    (r : Text) (g : List (Text × Text)) :
    ∃ st' i t, Inner i ∧ repAll (Re.seq htmlAttrRe (.star (.ch ' '))).all n 0 ⟨st, attrsText l ++ '>' :: r, g⟩ =
      ⟨st', '>' :: r, i ++ g⟩ :: t := by
  induction l generalizing n st g with
  | nil =>
    refine ⟨st, [], [], fun _ h => absurd h (List.not_mem_nil), ?_⟩
    exact repAll_none (all_seq_nil (attr_stop (by decide) _ _))
  | cons x l ih =>
    cases n with
    | zero => simp at hn
    | succ n =>
      have hx := hl x (by simp)
      cases l with
      | nil =>
        obtain ⟨t, e⟩ := heads_seq (heads_htmlAttr hx st ('>' :: r) g)
          (heads_star (s := ⟨false, [(' ', ' ')]⟩) (stops_cons (by decide)) [] (by simp) _ _)
        obtain ⟨t'', e''⟩ := repAll_more (n := n) (min := 0) e (by simp [attrOf]; omega)
          (repAll_none (all_seq_nil (attr_stop (by decide) _ _)))
        refine ⟨_, _ :: [_, _], t'', ?_, e''⟩
        intro y hy
        simp only [List.mem_cons, List.not_mem_nil, or_false] at hy
        rcases hy with rfl | rfl | rfl <;> simp
      | cons y l =>
        obtain ⟨c, r', hc, hcn⟩ := attrsText_head (hl y (by simp)) l
        obtain ⟨t, e⟩ := heads_seq (heads_htmlAttr hx st (' ' :: (attrsText (y :: l) ++ '>' :: r)) g)
          (heads_star (s := ⟨false, [(' ', ' ')]⟩) (r := attrsText (y :: l) ++ '>' :: r) (by
            rw [hc]
            refine stops_cons (single_ne ?_)
            rintro rfl
            exact absurd (attrName_mem hcn) (by decide)) [' '] (by decide) _ _)
        obtain ⟨st', i, t', hi, e'⟩ := ih (fun z hz => hl z (by simp [hz])) n (by simpa using hn) _ _
        obtain ⟨t'', e''⟩ := repAll_more (n := n) (min := 0) e (by simp [attrOf]; omega) e'
        refine ⟨st', i ++ [(t!"attribute", attrOf x), (t!"attrvalue", x.2), (t!"attrname", x.1)], t'', ?_, ?_⟩
        rotate_left
        · rw [show attrsText (x :: y :: l) ++ '>' :: r = attrOf x ++ ' ' :: (attrsText (y :: l) ++ '>' :: r) by
            simp [attrsText]]
          rw [List.append_assoc]
          exact e''
        · intro z hz
          rcases List.mem_append.1 hz with hz | hz
          · exact hi z hz
          · simp only [List.mem_cons, List.not_mem_nil, or_false] at hz
            rcases hz with rfl | rfl | rfl <;> simp

theorem attrs_length (l : List (Text × Text)) : l.length ≤ (attrsText l).length := by
  match l with
  | [] => exact Nat.le_refl _
  | [x] => simp only [attrsText, attrOf, List.length_append, List.length_cons, List.length_nil]; omega
  | x :: y :: l =>
    have := attrs_length (y :: l)
    simp only [attrsText, List.length_append, List.length_cons] at this ⊢
    omega

theorem write_attrs (l : List (Text × Text)) :
    l.flatMap (fun x => ' ' :: x.1 ++ '=' :: '"' :: x.2 ++ ['"']) = if l = [] then [] else ' ' :: attrsText l := by
  induction l with
  | nil => rfl
  | cons x l ih =>
    rw [List.flatMap_cons, ih]
    cases l <;> simp [attrsText, attrOf]

/-! ### Tags and texts -/

theorem heads_tag {t : Tag} (ht : t.Good) (st : Bool) (r : Text) :
    ∃ g, Heads tagRe ⟨st, t.write ++ r, []⟩ ⟨false, r, g⟩ ∧ groupOf g t!"element" = some t.element ∧
      (groupOf g t!"attribute_list").getD [] = attrsText t.attrs := by
  obtain ⟨⟨e1, e2⟩, ha⟩ := ht
  obtain ⟨el, attrs⟩ := t
  have e : Tag.write ⟨el, attrs⟩ ++ r =
      '<' :: (el ++ ((if attrs = [] then [] else ' ' :: attrsText attrs) ++ '>' :: r)) := by
    unfold Tag.write
    rw [write_attrs]
    simp
  have hel : ∀ r', Stops ⟨false, elementChars⟩ r' → Heads (.group t!"element" (.plus (.any elementChars)))
      ⟨false, el ++ r', []⟩ ⟨false, r', [(t!"element", el)]⟩ := fun r' hr' =>
    heads_group (q := ⟨false, r', []⟩) _ el (heads_plus hr' el e1 (fun c hc => element_mem (e2 c hc)) _ _) rfl
  rw [e]
  cases attrs with
  | nil =>
    simp only [if_true, List.nil_append]
    refine ⟨_, heads_group (q := ⟨false, r, [(t!"element", el)]⟩) _ ('<' :: (el ++ ['>'])) (heads_seq (heads_ch _ _ _ _)
      (heads_seq (hel _ (stops_cons (by decide))) (heads_seq (heads_opt_none ?_) (heads_ch _ _ _ _)))) (by simp), rfl, rfl⟩
    exact all_seq_nil (all_set_nil (stops_cons (by decide)))
  | cons x l =>
    rw [if_neg (by simp)]
    have hlen : (x :: l).length ≤ (attrsText (x :: l) ++ '>' :: r).length := by
      have := attrs_length (x :: l)
      simp only [List.length_append]; omega
    obtain ⟨st', i, t, hi, e'⟩ := rep_attrs (x :: l) ha _ hlen false r [(t!"element", el)]
    have hlist : Heads attrListRe ⟨false, attrsText (x :: l) ++ '>' :: r, [(t!"element", el)]⟩
        ⟨st', '>' :: r, (t!"attribute_list", attrsText (x :: l)) :: (i ++ [(t!"element", el)])⟩ :=
      heads_group (q := ⟨st', '>' :: r, i ++ [(t!"element", el)]⟩) _ _ ⟨t, by
        simpa [Re.star, Re.all] using e'⟩ rfl
    refine ⟨_, heads_group (q := ⟨false, r, _⟩) _ ('<' :: (el ++ (' ' :: attrsText (x :: l) ++ ['>'])))
      (heads_seq (heads_ch _ _ _ _) (heads_seq (hel _ (stops_cons (by decide)))
        (heads_seq (heads_opt (heads_seq (heads_ch _ _ _ _) hlist) (by simp; omega)) (heads_ch _ _ _ _)))) (by simp), ?_, rfl⟩
    have hfi : i.find? (fun y => decide (y.1 = t!"element")) = none := by
      rw [List.find?_eq_none]
      intro y hy
      have := hi y hy
      simp only [List.mem_cons, List.not_mem_nil, or_false] at this
      rcases this with h | h | h <;> rw [h] <;> decide
    unfold groupOf
    rw [List.find?_cons_of_neg (by simp), List.find?_cons_of_neg (by simp), List.find?_append, hfi]
    simp

theorem tag_needs {st : Bool} {c : Char} {r : Text} {g : List (Text × Text)} (h : c ≠ '<') :
    tagRe.all ⟨st, c :: r, g⟩ = [] := all_group_nil (all_seq_nil (all_set_nil (stops_cons (single_ne h))))

theorem tag_end {st : Bool} {g : List (Text × Text)} : tagRe.all ⟨st, [], g⟩ = [] :=
  all_group_nil (all_seq_nil (all_set_nil stops_nil))

theorem heads_alt_left {a b : Re} {p q : Place} (h : Heads a p q) : Heads (.alt a b) p q := by
  obtain ⟨t, e⟩ := h
  exact ⟨t ++ b.all p, by simp [Re.all, e]⟩

theorem heads_alt_right {a b : Re} {p q : Place} (h : a.all p = []) (h' : Heads b p q) : Heads (.alt a b) p q := by
  obtain ⟨t, e⟩ := h'
  exact ⟨t, by simp [Re.all, h, e]⟩

theorem heads_text (u : Text) (hu : ∀ c ∈ u, textSet.mem c = true) {r : Text} (hr : Stops textSet r) (st : Bool) :
    Heads textRe ⟨st, u ++ r, []⟩ ⟨st && u.isEmpty, r, [(t!"text", u)]⟩ :=
  heads_group (q := ⟨st && u.isEmpty, r, []⟩) _ u (heads_star hr u hu st []) rfl

/-! ### All matches -/

theorem findAll_step {r : Re} {p q : Place} (h : Heads r p q) (hl : q.rest.length < p.rest.length) (fuel : Nat) :
    findAll [((), r)] (fuel + 1) p = ((), between p q, q.groups) :: findAll [((), r)] fuel ⟨false, q.rest, []⟩ := by
  obtain ⟨t, e⟩ := h
  rw [findAll]
  simp only [firstPattern, e, hl, if_true]

theorem findAll_empty {r : Re} {p q : Place} (h : Heads r p q) (hl : q.rest.length = p.rest.length) (fuel : Nat) :
    findAll [((), r)] (fuel + 1) p = ((), between p q, q.groups) :: (match p.rest with
      | [] => []
      | _ :: r' => findAll [((), r)] fuel ⟨false, r', []⟩) := by
  obtain ⟨t, e⟩ := h
  rw [findAll]
  simp only [firstPattern, e, hl, Nat.lt_irrefl, if_false]
  rfl

theorem findAll_skip {r : Re} {st : Bool} {c : Char} {s : Text} (h : r.all ⟨st, c :: s, []⟩ = []) (fuel : Nat) :
    findAll [((), r)] (fuel + 1) ⟨st, c :: s, []⟩ = findAll [((), r)] fuel ⟨false, s, []⟩ := by
  rw [findAll]
  simp only [firstPattern, h]

theorem attrPairs_text (l : List (Text × Text)) (hl : ∀ x ∈ l, GoodPair x) : attrPairs (attrsText l) = l := by
  unfold attrPairs finditer
  suffices h : ∀ fuel st, (attrsText l).length < fuel → (findAll [((), htmlAttrRe)] fuel ⟨st, attrsText l, []⟩).map
      (fun x => ((groupOf x.2.2 t!"attrname").getD [], (groupOf x.2.2 t!"attrvalue").getD [])) = l from
    h _ _ (Nat.lt_succ_self _)
  induction l with
  | nil =>
    intro fuel st hf
    cases fuel with
    | zero => simp at hf
    | succ fuel => simp only [attrsText, findAll, firstPattern, attr_end, List.map_nil]
  | cons x l ih =>
    intro fuel st hf
    have hx := hl x (by simp)
    obtain ⟨f, rfl⟩ : ∃ f, fuel = f + 1 := ⟨fuel - 1, by omega⟩
    cases l with
    | nil =>
      have hh := heads_htmlAttr hx st [] []
      rw [List.append_nil] at hh
      rw [show attrsText [x] = attrOf x from rfl, findAll_step hh (by simp [attrOf]; omega)]
      cases f with
      | zero => simp [findAll, groupOf]
      | succ f => simp [findAll, firstPattern, attr_end, groupOf]
    | cons y l =>
      have hh := heads_htmlAttr hx st (' ' :: attrsText (y :: l)) []
      have hlen : (attrsText (x :: y :: l)).length = (attrOf x).length + 1 + (attrsText (y :: l)).length := by
        simp [attrsText]; omega
      rw [show attrsText (x :: y :: l) = attrOf x ++ ' ' :: attrsText (y :: l) from rfl,
        findAll_step hh (by simp [attrOf]; omega)]
      have h1 : 1 ≤ (attrOf x).length := by simp [attrOf]; omega
      obtain ⟨f', rfl⟩ : ∃ f', f = f' + 1 := ⟨f - 1, by omega⟩
      rw [findAll_skip (attr_stop (by decide) _ _), List.map_cons, ih (fun z hz => hl z (by simp [hz])) f' false (by omega)]
      rfl

/-! ### The whole text -/

/-- The text that is searched, made of tags and texts. -/
def bodyText (b : List (Tag × Text)) : Text := b.flatMap fun x => x.1.write ++ '\n' :: x.2

theorem stops_body (b : List (Tag × Text)) : Stops textSet (bodyText b) := by
  cases b with
  | nil => exact stops_nil
  | cons x b => exact stops_cons (by decide)

theorem plain_mem {t : Text} (h : PlainText t) : ∀ c ∈ t, textSet.mem c = true := by
  intro c hc
  rw [textSet_mem]
  exact ⟨fun e => h.1 (e ▸ hc), fun e => h.2.1 (e ▸ hc), fun e => h.2.2 (e ▸ hc)⟩

theorem tokenOf_text (u : Text) : tokenOf [(t!"text", u)] = if u = [] then none else some (.text (strip u)) := by
  unfold tokenOf
  by_cases h : u = [] <;> simp [groupOf, h]

theorem tag_write_pos (t : Tag) : 0 < t.write.length := by simp [Tag.write]

theorem text_step (u : Text) (hu : PlainText u) (hne : u ≠ []) (b : List (Tag × Text)) (fuel : Nat) (st : Bool) :
    findAll [((), tagOrTextRe)] (fuel + 1) ⟨st, u ++ bodyText b, []⟩ =
      ((), u, [(t!"text", u)]) :: findAll [((), tagOrTextRe)] fuel ⟨false, bodyText b, []⟩ := by
  have ht : tagRe.all ⟨st, u ++ bodyText b, []⟩ = [] := by
    cases u with
    | nil => exact absurd rfl hne
    | cons c u => exact tag_needs (fun e => hu.1 (by simp [e]))
  have := heads_alt_right ht (heads_text u (plain_mem hu) (stops_body b) st)
  have hl : 0 < u.length := List.length_pos_iff.2 hne
  rw [show tagOrTextRe = .alt tagRe textRe from rfl, findAll_step this (by simp; omega), between_eq rfl]

theorem body_tokens (b : List (Tag × Text)) (hb : ∀ x ∈ b, x.1.Good ∧ PlainText x.2) (fuel : Nat) (st : Bool)
    (hf : (bodyText b).length < fuel) :
    (findAll [((), tagOrTextRe)] fuel ⟨st, bodyText b, []⟩).filterMap (fun x => tokenOf x.2.2) =
      b.flatMap fun x => [.tag x.1.element x.1.attrs, .text (strip ('\n' :: x.2))] := by
  induction b generalizing fuel st with
  | nil =>
    obtain ⟨f, rfl⟩ : ∃ f, fuel = f + 1 := ⟨fuel - 1, by omega⟩
    have := heads_alt_right (a := tagRe) (b := textRe) (p := ⟨st, [], []⟩) tag_end
      (heads_text [] (by simp) stops_nil st)
    rw [show bodyText [] = [] from rfl, show tagOrTextRe = .alt tagRe textRe from rfl, findAll_empty this rfl]
    rfl
  | cons x b ih =>
    obtain ⟨hg, hp⟩ := hb x (by simp)
    have e : bodyText (x :: b) = x.1.write ++ (('\n' :: x.2) ++ bodyText b) := by simp [bodyText]
    have hpos := tag_write_pos x.1
    rw [e] at hf ⊢
    simp only [List.length_append, List.length_cons] at hf
    obtain ⟨f, rfl⟩ : ∃ f, fuel = f + 2 := ⟨fuel - 2, by omega⟩
    obtain ⟨g, h1, h2, h3⟩ := heads_tag hg st (('\n' :: x.2) ++ bodyText b)
    have hpl : PlainText ('\n' :: x.2) := by
      unfold PlainText at hp ⊢
      simp [hp]
    rw [show tagOrTextRe = .alt tagRe textRe from rfl, findAll_step (heads_alt_left h1) (by simp; omega),
      show Re.alt tagRe textRe = tagOrTextRe from rfl, text_step _ hpl (by simp) b f false,
      List.filterMap_cons, List.filterMap_cons, ih (fun y hy => hb y (by simp [hy])) f false (by omega)]
    have ht : tokenOf g = some (.tag x.1.element x.1.attrs) := by
      unfold tokenOf
      simp only [h2, h3, Option.getD_some, hg.1.1, ne_eq, not_false_eq_true, if_true]
      rw [attrPairs_text _ hg.2]
    simp only [ht, tokenOf_text]
    simp

/-! ### Normalisation -/

theorem nomalize_append (s t : Text) : nomalize (s ++ t) = nomalize s ++ nomalize t := by
  simp [nomalize]

theorem nomalize_plain {s : Text} (h : '>' ∉ s) : nomalize s = s.filter (· ≠ '\n') := by
  induction s with
  | nil => rfl
  | cons c s ih =>
    simp only [List.mem_cons, not_or] at h
    have := ih h.2
    unfold nomalize at this ⊢
    by_cases hc : c = '\n'
    · simp only [List.filter_cons, hc]; simpa using this
    · rw [List.filter_cons_of_pos (by simpa using hc), List.flatMap_cons, this, if_neg (Ne.symm h.1)]
      rfl

theorem element_ne {c d : Char} (h : ElementChar c) (hd : CharSet.mem ⟨false, elementChars⟩ d = false) : c ≠ d := by
  rintro rfl
  rw [element_mem h] at hd
  cases hd

theorem attr_ne {x : Text × Text} (hx : GoodPair x) (d : Char) (h1 : CharSet.mem ⟨false, attrNameChars⟩ d = false)
    (h2 : CharSet.mem ⟨false, attrValueChars⟩ d = false) (h3 : d ≠ '=' ∧ d ≠ '"') : d ∉ attrOf x := by
  obtain ⟨⟨_, n2⟩, _, v2⟩ := hx
  unfold attrOf
  simp only [List.mem_append, List.mem_cons, List.not_mem_nil, or_false, not_or]
  refine ⟨⟨fun h => ?_, h3.1, h3.2, fun h => ?_⟩, h3.2⟩
  · have := attrName_mem (n2 d h); rw [h1] at this; cases this
  · have := attrValue_mem (v2 d h); rw [h2] at this; cases this

theorem nomalize_tag {t : Tag} (ht : t.Good) : nomalize t.write = t.write ++ ['\n'] := by
  have hd : ∀ d, d ∈ ['\n', '>'] → d ∉ '<' :: t.element ++ t.attrs.flatMap (fun x => ' ' :: x.1 ++ '=' :: '"' :: x.2 ++ ['"']) := by
    intro d hd
    simp only [List.mem_cons, List.not_mem_nil, or_false] at hd
    have h1 : CharSet.mem ⟨false, elementChars⟩ d = false := by rcases hd with rfl | rfl <;> decide
    have h2 : CharSet.mem ⟨false, attrNameChars⟩ d = false := by rcases hd with rfl | rfl <;> decide
    have h3 : CharSet.mem ⟨false, attrValueChars⟩ d = false := by rcases hd with rfl | rfl <;> decide
    have h4 : d ≠ '<' ∧ d ≠ ' ' ∧ d ≠ '=' ∧ d ≠ '"' := by rcases hd with rfl | rfl <;> decide
    simp only [List.cons_append, List.mem_cons, List.mem_append, List.mem_flatMap, not_or, not_exists, not_and]
    refine ⟨h4.1, fun h => element_ne (ht.1.2 d h) h1 rfl, fun x hx => ⟨h4.2.1, ?_⟩⟩
    have := attr_ne (ht.2 x hx) d h2 h3 h4.2.2
    unfold attrOf at this
    simpa [and_assoc] using this
  have e : t.write = ('<' :: t.element ++ t.attrs.flatMap (fun x => ' ' :: x.1 ++ '=' :: '"' :: x.2 ++ ['"'])) ++ ['>'] := rfl
  rw [e, nomalize_append, nomalize_plain (hd '>' (by simp))]
  have : List.filter (fun c => decide (c ≠ '\n')) ('<' :: t.element ++ t.attrs.flatMap (fun x => ' ' :: x.1 ++ '=' :: '"' :: x.2 ++ ['"'])) =
      '<' :: t.element ++ t.attrs.flatMap (fun x => ' ' :: x.1 ++ '=' :: '"' :: x.2 ++ ['"']) := by
    rw [List.filter_eq_self]
    intro c hc
    have := hd '\n' (by simp)
    simp only [decide_eq_true_eq]
    rintro rfl
    exact this hc
  rw [this]
  simp [nomalize]

theorem nomalize_write {h : Html} (hg : h.Good) :
    nomalize h.write = h.lead.filter (· ≠ '\n') ++ bodyText (h.body.map fun x => (x.1, x.2.filter (· ≠ '\n'))) := by
  obtain ⟨hl, hb⟩ := hg
  unfold Html.write
  rw [nomalize_append, nomalize_plain hl.2.1]
  congr 1
  generalize h.body = b at hb
  induction b with
  | nil => rfl
  | cons x b ih =>
    obtain ⟨g1, g2⟩ := hb x (by simp)
    rw [List.flatMap_cons, nomalize_append, nomalize_append, nomalize_tag g1, nomalize_plain g2.2.1,
      ih (fun y hy => hb y (by simp [hy]))]
    simp [bodyText]

theorem plain_filter {t : Text} (h : PlainText t) : PlainText (t.filter (· ≠ '\n')) :=
  ⟨fun hc => h.1 (List.mem_filter.1 hc).1, fun hc => h.2.1 (List.mem_filter.1 hc).1, fun hc => h.2.2 (List.mem_filter.1 hc).1⟩

theorem tupdict_write {h : Html} (hg : h.Good) : tupdict (nomalize h.write) = h.shown := by
  rw [nomalize_write hg]
  obtain ⟨hl, hb⟩ := hg
  have hb' : ∀ x ∈ (h.body.map fun x => (x.1, x.2.filter (· ≠ '\n'))), x.1.Good ∧ PlainText x.2 := by
    intro x hx
    obtain ⟨y, hy, rfl⟩ := List.mem_map.1 hx
    exact ⟨(hb y hy).1, plain_filter (hb y hy).2⟩
  have hbody : ∀ (fuel : Nat) st, (bodyText (h.body.map fun x => (x.1, x.2.filter (· ≠ '\n')))).length < fuel →
      (findAll [((), tagOrTextRe)] fuel ⟨st, bodyText (h.body.map fun x => (x.1, x.2.filter (· ≠ '\n'))), []⟩).filterMap
        (fun x => tokenOf x.2.2) = h.body.flatMap fun x => [.tag x.1.element x.1.attrs, .text (trimmed x.2)] := by
    intro fuel st hf
    rw [body_tokens _ hb' fuel st hf, List.flatMap_map]
    rfl
  unfold tupdict finditer Html.shown
  by_cases hn : h.lead.filter (· ≠ '\n') = []
  · rw [if_pos hn, hn, List.nil_append, List.nil_append]
    exact hbody _ _ (Nat.lt_succ_self _)
  · rw [if_neg hn, text_step _ (plain_filter hl) hn, List.filterMap_cons]
    simp only [tokenOf_text, hn, if_false]
    rw [hbody _ _ (by have := List.length_pos_iff.2 hn; simp only [List.length_append]; omega)]
    rfl

/-! ### Text without tags -/

theorem tag_close {p q : Place} (h : q ∈ tagRe.all p) : '>' ∈ p.rest := by
  obtain ⟨q1, _, h1, _⟩ := mem_group h
  obtain ⟨q2, h2, h3⟩ := mem_seq h1
  obtain ⟨q3, h4, h5⟩ := mem_seq h3
  obtain ⟨q4, h6, h7⟩ := mem_seq h5
  obtain ⟨u1, _, e1, _⟩ := all_reads _ _ _ h2
  obtain ⟨u2, _, e2, _⟩ := all_reads _ _ _ h4
  obtain ⟨u3, _, e3, _⟩ := all_reads _ _ _ h6
  have e4 := (mem_ch h7).1
  rw [e1, e2, e3, e4]
  simp

theorem no_tag {st : Bool} {s : Text} (h : '>' ∉ s) : tagRe.all ⟨st, s, []⟩ = [] := by
  cases e : tagRe.all ⟨st, s, []⟩ with
  | nil => rfl
  | cons q t => exact absurd (tag_close (q := q) (by rw [e]; simp)) h

/-- A `<` for every `&`. -/
def rawAmp (c : Char) : Char := if c = '&' then '<' else c

theorem rawAmp_mem (c : Char) : textSet.mem (rawAmp c) = textSet.mem c := by
  unfold rawAmp
  split
  · rename_i h; subst h; decide
  · rfl

theorem span_text (s : Text) : ∃ u r, s = u ++ r ∧ (∀ c ∈ u, textSet.mem c = true) ∧ Stops textSet r := by
  refine ⟨s.takeWhile (fun c => textSet.mem c), s.dropWhile (fun c => textSet.mem c), (List.takeWhile_append_dropWhile).symm, ?_, ?_⟩
  · intro c hc
    have := List.all_takeWhile (p := fun c => textSet.mem c) (l := s)
    exact List.all_eq_true.1 this c hc
  · intro c hc
    have := List.head?_dropWhile_not (fun c => textSet.mem c) s
    rw [hc] at this
    simpa using this

theorem raw_map (u : Text) (hu : ∀ c ∈ u, textSet.mem c = true) : u.map rawAmp = u := by
  rw [List.map_congr_left (g := id), List.map_id]
  intro c hc
  have := (textSet_mem c).1 (hu c hc)
  simp [rawAmp, this.2.2]

theorem raw_same (fuel : Nat) (s : Text) (h : '>' ∉ s) (st st' : Bool) :
    (findAll [((), tagOrTextRe)] fuel ⟨st, s, []⟩) = findAll [((), tagOrTextRe)] fuel ⟨st', s.map rawAmp, []⟩ := by
  induction fuel generalizing s st st' with
  | zero => rfl
  | succ fuel ih =>
    obtain ⟨u, r, rfl, hu, hr⟩ := span_text s
    have hr' : Stops textSet (r.map rawAmp) := by
      intro c hc
      rw [List.head?_map] at hc
      cases hh : r.head? with
      | none => rw [hh] at hc; cases hc
      | some d =>
        rw [hh] at hc
        simp only [Option.map_some, Option.some.injEq] at hc
        rw [← hc, rawAmp_mem]
        exact hr d hh
    have hn' : '>' ∉ (u ++ r).map rawAmp := by
      intro hm
      obtain ⟨c, hc, e⟩ := List.mem_map.1 hm
      unfold rawAmp at e
      split at e
      · exact absurd e (by decide)
      · exact h (e ▸ hc)
    have em : (u ++ r).map rawAmp = u ++ r.map rawAmp := by rw [List.map_append, raw_map u hu]
    have h1 := heads_alt_right (b := textRe) (no_tag (st := st) h) (heads_text u hu hr st)
    have h2 := heads_alt_right (b := textRe) (no_tag (st := st') hn') (em ▸ heads_text u hu hr' st')
    have hrr : '>' ∉ r := fun hm => h (by simp [hm])
    rw [show tagOrTextRe = .alt tagRe textRe from rfl]
    by_cases hne : u = []
    · subst hne
      rw [findAll_empty h1 rfl, findAll_empty h2 (by simp)]
      have b1 : ∀ (x : Text) (a b : Bool) (g : List (Text × Text)), between ⟨a, x, []⟩ ⟨b, x, g⟩ = [] :=
        fun x a b g => between_eq (s := []) rfl
      simp only [List.nil_append, b1]
      congr 1
      cases r with
      | nil => rfl
      | cons c r => exact ih r (fun hm => hrr (by simp [hm])) false false
    · have hl : 0 < u.length := List.length_pos_iff.2 hne
      rw [findAll_step h1 (by simp; omega), findAll_step h2 (by simp; omega)]
      rw [between_eq (s := u) rfl, between_eq (s := u) em]
      congr 1
      exact ih r hrr false false

end Bglib.Doc
