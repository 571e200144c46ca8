import Verif.Lemmas.Heads
import Verif.Lemmas.Split
import Verif.Spec.Css
/-
Helper lemmas: reading a written rule.
-/
namespace Bglib.Img
open Bglib Bglib.Spec

theorem letter_mem {c : Char} (h : Letter c) : CharSet.mem ⟨false, [('_', '_'), ('a', 'z'), ('A', 'Z')]⟩ c = true := by
  unfold Letter at h
  simp only [CharSet.mem, List.any_cons, List.any_nil]
  rcases h with rfl | h | h
  · decide
  · simp [h]
  · simp [h]

theorem nameChar_mem {c : Char} (h : NameChar c) : CharSet.mem ⟨false, nameChars⟩ c = true := by
  unfold NameChar Letter at h
  simp only [CharSet.mem, nameChars, List.any_cons, List.any_nil]
  rcases h with (rfl | h | h) | h | rfl
  · decide
  · simp [h]
  · simp [h]
  · simp [h]
  · decide

theorem not_mem_single {c d : Char} (h : d ≠ c) : CharSet.mem ⟨true, [(c, c)]⟩ d = true := by
  have := charSet_single c d
  unfold CharSet.mem at this ⊢
  rcases hx : (List.any [(c, c)] fun r => decide (r.1 ≤ d) && decide (d ≤ r.2)) with _ | _
  · rfl
  · rw [hx] at this
    exact absurd (this.1 rfl) h

theorem mem_single (c : Char) : CharSet.mem ⟨true, [(c, c)]⟩ c = false := by
  have := (charSet_single c c).2 rfl
  unfold CharSet.mem at this ⊢
  rcases hx : (List.any [(c, c)] fun r => decide (r.1 ≤ c) && decide (c ≤ r.2)) with _ | _
  · rw [hx] at this; simp at this
  · rfl

theorem single_ne {c d : Char} (h : d ≠ c) : CharSet.mem ⟨false, [(c, c)]⟩ d = false := by
  rcases hx : CharSet.mem ⟨false, [(c, c)]⟩ d with _ | _
  · rfl
  · exact absurd ((charSet_single c d).1 hx) h

theorem stops_cons {s : CharSet} {c : Char} {r : Text} (h : s.mem c = false) : Stops s (c :: r) := by
  intro d hd
  simp at hd
  exact hd ▸ h

theorem stops_nil {s : CharSet} : Stops s [] := by
  intro d hd
  simp at hd

theorem heads_blanks (n : Nat) {r : Text} (hr : ∀ c, r.head? = some c → c ≠ ' ') (st : Bool)
    (g : List (Text × Text)) : Heads (.star (.ch ' ')) ⟨st, blanks n ++ r, g⟩ ⟨st && (blanks n).isEmpty, r, g⟩ := by
  apply heads_star
  · intro c hc
    exact single_ne (hr c hc)
  · intro c hc
    rw [charSet_single]
    exact (List.mem_replicate.1 hc).2

/-- The part for the attribute. -/
def attrRe : Re :=
  .all' [.ch '[', .group t!"name" (.plus (.any nameChars)), .ch '=', .group t!"value" (.plus (.any nameChars)), .ch ']']

/-- The part for the data. -/
def dataRe : Re := .all' [.lit t!":data(", .group t!"data" (.plus (.set ⟨true, [(')', ')')]⟩)), .ch ')']

def attrText : Option (Text × Text) → Text
  | some (n, v) => '[' :: n ++ '=' :: v ++ [']']
  | none => []

def dataText : Option Text → Text
  | some d => t!":data(" ++ d ++ [')']
  | none => []

def attrGroups : Option (Text × Text) → List (Text × Text)
  | some (n, v) => [(t!"value", v), (t!"name", n)]
  | none => []

def dataGroups : Option Text → List (Text × Text)
  | some d => [(t!"data", d)]
  | none => []

theorem writeSelector_eq (s : Selector) : writeSelector s = s.element ++ (attrText s.attr ++ dataText s.data) := by
  obtain ⟨e, a, d⟩ := s
  unfold writeSelector attrText dataText
  rw [List.append_assoc]
  rcases a with _ | ⟨n, v⟩ <;> rcases d with _ | d <;> rfl

theorem heads_data (da : Option Text) (h4 : ∀ d, da = some d → Word (fun c => c ≠ ')' ∧ c ≠ ' ' ∧ c ≠ '{') d)
    (g : List (Text × Text)) : Heads dataRe.opt ⟨false, dataText da, g⟩ ⟨false, [], dataGroups da ++ g⟩ := by
  cases da with
  | none => exact heads_opt_none (by simp [dataRe, dataText, Re.all', Re.lit, Re.all, Re.ch])
  | some d =>
    obtain ⟨k1, k2⟩ := h4 d rfl
    refine heads_opt (heads_seq (q := ⟨false, d ++ [')'], g⟩) ?_
      (heads_seq (heads_group (q := ⟨false, [')'], g⟩) _ d (heads_plus (stops_cons (mem_single _)) d k1 ?_ _ _) rfl)
        (heads_ch _ _ _ _))) ?_
    · have := heads_lit ':' t!"data(" false (d ++ [')']) g
      simpa [dataText] using this
    · intro c hc
      exact not_mem_single (k2 c hc).1
    · simp [dataText]

theorem heads_name (n : Text) (hn : Word NameChar n) {r : Text} (hr : Stops ⟨false, nameChars⟩ r) (k : Text) (st : Bool)
    (g : List (Text × Text)) :
    Heads (.group k (.plus (.any nameChars))) ⟨st, n ++ r, g⟩ ⟨false, r, (k, n) :: g⟩ :=
  heads_group (q := ⟨false, r, g⟩) k n (heads_plus hr n hn.1 (fun c hc => nameChar_mem (hn.2 c hc)) st g) rfl

theorem heads_attr (at_ : Option (Text × Text)) (h3 : ∀ n v, at_ = some (n, v) → Word NameChar n ∧ Word NameChar v)
    (r : Text) (hr : r.head? ≠ some '[') (g : List (Text × Text)) :
    Heads attrRe.opt ⟨false, attrText at_ ++ r, g⟩ ⟨false, r, attrGroups at_ ++ g⟩ := by
  cases at_ with
  | none =>
    refine heads_opt_none ?_
    refine all_seq_nil (all_set_nil ?_)
    intro c hc
    refine single_ne ?_
    rintro rfl
    exact hr (by simpa [attrText] using hc)
  | some nv =>
    obtain ⟨n, v⟩ := nv
    obtain ⟨hn, hv⟩ := h3 n v rfl
    have e : attrText (some (n, v)) ++ r = '[' :: (n ++ '=' :: (v ++ ']' :: r)) := by simp [attrText]
    rw [e]
    refine heads_opt (heads_seq (heads_ch _ _ _ _) (heads_seq (heads_name n hn (stops_cons (by decide)) _ _ _)
      (heads_seq (heads_ch _ _ _ _) (heads_seq (heads_name v hv (stops_cons (by decide)) _ _ _)
        (heads_ch _ _ _ _))))) ?_
    simp; omega

theorem dataText_head (d : Option Text) : (dataText d).head? ≠ some '[' := by cases d <;> simp [dataText]

theorem tail_stops (s : Selector) : Stops ⟨false, [('_', '_'), ('a', 'z'), ('A', 'Z')]⟩ (attrText s.attr ++ dataText s.data) := by
  obtain ⟨e, a, d⟩ := s
  rcases a with _ | ⟨n, v⟩ <;> rcases d with _ | d <;>
    first
      | exact stops_nil
      | exact stops_cons (by decide)

/-- What the selector pattern does at a written selector. -/
theorem heads_selector {s : Selector} (hs : GoodSelector s) (st : Bool) :
    Heads selectorRe ⟨st, writeSelector s, []⟩
      ⟨false, [], dataGroups s.data ++ (attrGroups s.attr ++ [(t!"element", s.element)])⟩ := by
  rw [writeSelector_eq]
  refine heads_seq (heads_group (q := ⟨false, _, []⟩) _ s.element
    (heads_plus (s := ⟨false, [('_', '_'), ('a', 'z'), ('A', 'Z')]⟩) (tail_stops s) s.element hs.element.1
      (fun c hc => letter_mem (hs.element.2 c hc)) st []) rfl) ?_
  exact heads_seq (heads_attr s.attr hs.attr _ (dataText_head _) _) (heads_data s.data hs.data _)

theorem selector_groups (s : Selector) (css : List (Text × Text))
    (h : css = dataGroups s.data ++ (attrGroups s.attr ++ [(t!"element", s.element)])) :
    (⟨(grp css t!"element").getD [],
     (match grp css t!"name", grp css t!"value" with
      | some n, some v => some (n, v)
      | _, _ => none),
     grp css t!"data"⟩ : Selector) = s := by
  subst h
  obtain ⟨e, a, d⟩ := s
  rcases a with _ | ⟨n, v⟩ <;> rcases d with _ | d <;> simp [grp, dataGroups, attrGroups, List.find?]

theorem parseSelector_write {s : Selector} (hs : GoodSelector s) : parseSelector (writeSelector s) = some s := by
  rw [parseSelector, search_heads (heads_selector hs true), Option.map_some]
  exact congrArg some (selector_groups s _ rfl)

theorem hash_selector (st : Bool) (r : Text) : selectorRe.all ⟨st, '#' :: r, []⟩ = [] :=
  all_seq_nil (all_group_nil (all_plus_nil (s := ⟨false, [('_', '_'), ('a', 'z'), ('A', 'Z')]⟩) (stops_cons (by decide))))

/-- A `#` before a selector is skipped. -/
theorem parseSelector_hash {s : Selector} (hs : GoodSelector s) : parseSelector ('#' :: writeSelector s) = some s := by
  rw [parseSelector, search, searchFrom_skip (hash_selector _ _), searchFrom_heads (heads_selector hs false),
    Option.map_some, Option.map_some]
  exact congrArg some (selector_groups s _ rfl)

theorem parseSelector_only_hash : parseSelector ['#'] = none := by decide

/-! ### Patterns -/

theorem nameChar_ne {c d : Char} (h : NameChar c) (hd : CharSet.mem ⟨false, nameChars⟩ d = false) : c ≠ d := by
  rintro rfl
  rw [nameChar_mem h] at hd
  exact absurd hd (by simp)

theorem letter_ne {c d : Char} (h : Letter c) (hd : CharSet.mem ⟨false, nameChars⟩ d = false) : c ≠ d :=
  nameChar_ne (Or.inl h) hd

theorem not_mem_write {s : Selector} (hs : GoodSelector s) (d : Char) (hd : CharSet.mem ⟨false, nameChars⟩ d = false)
    (hd' : d = ' ' ∨ d = '{') : d ∉ writeSelector s := by
  have hdd : d ≠ '[' ∧ d ≠ '=' ∧ d ≠ ']' ∧ d ∉ t!":data(" ∧ d ≠ ')' := by rcases hd' with rfl | rfl <;> decide
  obtain ⟨d1, d2, d3, d4, d5⟩ := hdd
  rw [writeSelector_eq]
  intro h
  rcases List.mem_append.1 h with h | h
  · exact letter_ne (hs.element.2 d h) hd rfl
  rcases List.mem_append.1 h with h | h
  · rcases ha : s.attr with _ | ⟨n, v⟩
    · simp [ha, attrText] at h
    · obtain ⟨hn, hv⟩ := hs.attr n v ha
      simp [ha, attrText, d1, d2, d3] at h
      rcases h with h | h
      · exact nameChar_ne (hn.2 d h) hd rfl
      · exact nameChar_ne (hv.2 d h) hd rfl
  · rcases ha : s.data with _ | t
    · simp [ha, dataText] at h
    · have ht := hs.data t ha
      rw [ha, dataText, List.mem_append, List.mem_append] at h
      rcases h with (h | h) | h
      · exact d4 h
      · rcases hd' with rfl | rfl
        · exact (ht.2 _ h).2.1 rfl
        · exact (ht.2 _ h).2.2 rfl
      · exact d5 (by simpa using h)

theorem write_ne_nil {s : Selector} (hs : GoodSelector s) : writeSelector s ≠ [] := by
  rw [writeSelector_eq]
  simp [hs.element.1]

theorem parsePattern_blank (t : Text) : parsePattern (' ' :: t) = parsePattern t := by
  simp [parsePattern, splitChar]

theorem parsePattern_blanks (n : Nat) (t : Text) : parsePattern (blanks n ++ t) = parsePattern t := by
  induction n with
  | zero => rfl
  | succ n ih => rw [← ih, ← parsePattern_blank]; rfl

theorem parsePattern_nil : parsePattern [] = [] := by decide

theorem parsePattern_token (w : Text) (hw : w ≠ []) (hb : ' ' ∉ w) (n : Nat) (t : Text) (hn : n ≠ 0 ∨ t = []) :
    parsePattern (w ++ (blanks n ++ t)) = (parseSelector w).toList ++ parsePattern t := by
  rw [← parsePattern_blanks n t]
  cases n with
  | zero =>
    have ht : t = [] := by simpa using hn
    subst ht
    simp only [blanks, List.replicate_zero, List.append_nil, parsePattern_nil]
    rw [parsePattern, splitChar_none _ _ hb, List.filterMap_cons, if_neg hw]
    cases parseSelector w <;> rfl
  | succ n =>
    have e : blanks (n + 1) ++ t = ' ' :: (blanks n ++ t) := rfl
    rw [e, parsePattern_blank, parsePattern, splitChar_append _ _ _ hb]
    rw [List.filterMap_cons, if_neg hw]
    cases parseSelector w <;> rfl

theorem parsePattern_selectors {ss : List Selector} {p : Text} (h : Selectors ss p) : parsePattern p = ss := by
  induction h with
  | one s n hs =>
    have := parsePattern_token _ (write_ne_nil hs) (not_mem_write hs ' ' (by decide) (by simp)) n [] (Or.inr rfl)
    rw [List.append_nil] at this
    rw [this, parseSelector_write hs, parsePattern_nil]
    rfl
  | more s n hs _ ih =>
    rw [List.append_assoc, parsePattern_token _ (write_ne_nil hs) (not_mem_write hs ' ' (by decide) (by simp)) _ _
      (Or.inl (by simp)), parseSelector_write hs, ih]
    rfl

theorem parsePattern_hash {ss : List Selector} {p : Text} (h : Selectors ss p) (n : Nat) :
    parsePattern ('#' :: (blanks n ++ p)) = ss := by
  cases n with
  | succ n =>
    have := parsePattern_token ['#'] (by simp) (by decide) (n + 1) p (Or.inl (by simp))
    rw [List.singleton_append] at this
    rw [this, parseSelector_only_hash, parsePattern_selectors h]
    rfl
  | zero =>
    have hb : ∀ s, GoodSelector s → ' ' ∉ '#' :: writeSelector s := by
      intro s hs hm
      rcases List.mem_cons.1 hm with hm | hm
      · exact absurd hm (by decide)
      · exact not_mem_write hs ' ' (by decide) (by simp) hm
    cases h with
    | one s n hs =>
      have := parsePattern_token ('#' :: writeSelector s) (by simp) (hb s hs) n [] (Or.inr rfl)
      rw [List.append_nil] at this
      have e : '#' :: (blanks 0 ++ (writeSelector s ++ blanks n)) = '#' :: writeSelector s ++ blanks n := rfl
      rw [e, this, parseSelector_hash hs, parsePattern_nil]
      rfl
    | more s n hs h =>
      rename_i ss t
      have e : '#' :: (blanks 0 ++ (writeSelector s ++ blanks (n + 1) ++ t)) =
          '#' :: writeSelector s ++ (blanks (n + 1) ++ t) := by simp [blanks]
      rw [e, parsePattern_token _ (by simp) (hb s hs) _ _ (Or.inl (by simp)), parseSelector_hash hs,
        parsePattern_selectors h]
      rfl

theorem selectors_brace {ss : List Selector} {p : Text} (h : Selectors ss p) : '{' ∉ p := by
  have hb : ∀ n, '{' ∉ blanks n := by
    intro n hm
    exact absurd (List.mem_replicate.1 hm).2 (by decide)
  induction h with
  | one s n hs =>
    intro hm
    rcases List.mem_append.1 hm with hm | hm
    · exact not_mem_write hs '{' (by decide) (by simp) hm
    · exact hb _ hm
  | more s n hs _ ih =>
    intro hm
    rcases List.mem_append.1 hm with hm | hm
    · rcases List.mem_append.1 hm with hm | hm
      · exact not_mem_write hs '{' (by decide) (by simp) hm
      · exact hb _ hm
    · exact ih hm

theorem selectors_first {ss : List Selector} {p : Text} (h : Selectors ss p) : ∃ c r, p = c :: r ∧ c ≠ ' ' := by
  have : ∀ s, GoodSelector s → ∀ t, ∃ c r, writeSelector s ++ t = c :: r ∧ c ≠ ' ' := by
    intro s hs t
    rcases hw : writeSelector s with _ | ⟨c, r⟩
    · exact absurd hw (write_ne_nil hs)
    · refine ⟨c, r ++ t, rfl, ?_⟩
      rintro rfl
      exact not_mem_write hs ' ' (by decide) (by simp) (by rw [hw]; simp)
  cases h with
  | one s n hs => exact this s hs _
  | more s n hs h => rw [List.append_assoc]; exact this s hs _

/-! ### Blocks -/

theorem heads_attribute {x : Text × Text} (hx : GoodAttr x) (a b c d : Nat) :
    Heads attributeRe ⟨true, writeAttr x a b c d, []⟩ ⟨false, [], [(t!"value", x.2), (t!"name", x.1)]⟩ := by
  obtain ⟨n, v⟩ := x
  obtain ⟨hn, hv⟩ := hx
  simp only at hn hv
  have e : writeAttr (n, v) a b c d = blanks a ++ (n ++ (blanks b ++ ':' :: (blanks c ++ (v ++ blanks d)))) := by
    simp [writeAttr]
  rw [e]
  have first : ∀ (w t : Text), w ≠ [] → (∀ c ∈ w, c ≠ ' ') → ∀ c, (w ++ t).head? = some c → c ≠ ' ' := by
    intro w t h1 h2 c hc
    cases w with
    | nil => exact absurd rfl h1
    | cons d w =>
      simp at hc
      exact hc ▸ h2 d (by simp)
  have hstop : Stops ⟨false, nameChars⟩ (blanks b ++ ':' :: (blanks c ++ (v ++ blanks d))) := by
    cases b with
    | zero => exact stops_cons (by decide)
    | succ b => exact stops_cons (by decide)
  have hvstop : Stops ⟨true, [(' ', ' ')]⟩ (blanks d) := by
    cases d with
    | zero => exact stops_nil
    | succ d => exact stops_cons (by decide)
  have hlast : Heads (.star (.ch ' ')) ⟨false, blanks d, [(t!"value", v), (t!"name", n)]⟩
      ⟨false, [], [(t!"value", v), (t!"name", n)]⟩ := by
    have := heads_blanks d (r := []) (by simp) false [(t!"value", v), (t!"name", n)]
    simpa using this
  refine heads_seq (heads_blanks a (first n _ hn.1 fun c hc => nameChar_ne (hn.2 c hc) (by decide)) _ _)
    (heads_seq (heads_name n hn hstop _ _ _) (heads_seq (heads_blanks b (by simp) _ _) (heads_seq (heads_ch _ _ _ _)
      (heads_seq (heads_blanks c (first v _ hv.1 fun c hc => (hv.2 c hc).1) _ _)
        (heads_seq (heads_group (q := ⟨false, blanks d, _⟩) _ v
          (heads_plus hvstop v hv.1 (fun c hc => not_mem_single (hv.2 c hc).1) _ _) rfl) hlast)))))

theorem parseAttribute_write {x : Text × Text} (hx : GoodAttr x) (a b c d : Nat) :
    parseAttribute (writeAttr x a b c d) = some x := by
  rw [parseAttribute, search_heads (heads_attribute hx a b c d), Option.map_some]
  simp [grp, List.find?]

theorem searchFrom_blanks (n : Nat) (st : Bool) : searchFrom attributeRe st (blanks n) = none := by
  have hall : ∀ n st, attributeRe.all ⟨st, blanks n, []⟩ = [] := by
    intro n st
    rcases h : attributeRe.all ⟨st, blanks n, []⟩ with _ | ⟨q, t⟩
    · rfl
    · exfalso
      have hq : q ∈ attributeRe.all ⟨st, blanks n, []⟩ := by rw [h]; simp
      obtain ⟨r, hr, hq⟩ := mem_seq hq
      obtain ⟨k, hk, hq⟩ := mem_seq hq
      obtain ⟨m, _, hm, _, he⟩ := mem_group hk
      obtain ⟨t1, _, e1, _, _⟩ := repAll_set _ _ _ _ hr
      obtain ⟨t2, h2, e2, _, h3⟩ := mem_plus_set hm
      cases t2 with
      | nil => exact h2 rfl
      | cons c t2 =>
        have hc := h3 c (by simp)
        have : c ∈ blanks n := by
          have e1 : blanks n = t1 ++ r.rest := e1
          rw [e1, e2]
          simp
        have := (List.mem_replicate.1 this).2
        subst this
        exact absurd hc (by decide)
  induction n generalizing st with
  | zero => rw [show blanks 0 = [] from rfl, searchFrom, show ([] : Text) = blanks 0 from rfl, hall]; rfl
  | succ n ih =>
    have := hall (n + 1) st
    rw [show blanks (n + 1) = ' ' :: blanks n from rfl] at this ⊢
    rw [searchFrom_skip this, ih]

theorem parseAttribute_blanks (n : Nat) : parseAttribute (blanks n) = none := by
  rw [parseAttribute, search, searchFrom_blanks]
  rfl

/-- The dictionary made of some entries. -/
def dictOf (xs : List (Text × Text)) : List (Text × Text) := xs.foldl (fun d x => putText x.1 x.2 d) []

theorem writeAttr_chars {x : Text × Text} (hx : GoodAttr x) (a b c d : Nat) (e : Char)
    (he : CharSet.mem ⟨false, nameChars⟩ e = false) (he' : e = ';' ∨ e = ']') : e ∉ writeAttr x a b c d := by
  have hb : ∀ n, e ∉ blanks n := by
    intro n hm
    have := (List.mem_replicate.1 hm).2
    rcases he' with rfl | rfl <;> exact absurd this (by decide)
  have hc : e ≠ ':' := by rcases he' with rfl | rfl <;> decide
  unfold writeAttr
  intro hm
  simp only [List.mem_append, List.mem_cons, List.append_assoc, List.cons_append] at hm
  rcases hm with hm | hm | hm | hm | hm | hm | hm
  · exact hb _ hm
  · exact nameChar_ne (hx.name.2 e hm) he rfl
  · exact hb _ hm
  · exact hc hm
  · exact hb _ hm
  · rcases he' with rfl | rfl
    · exact (hx.value.2 _ hm).2.1 rfl
    · exact (hx.value.2 _ hm).2.2 rfl
  · exact hb _ hm

theorem writeAttr_ne_nil (x : Text × Text) (a b c d : Nat) : writeAttr x a b c d ≠ [] := by
  simp [writeAttr]

theorem block_attributes {xs : List (Text × Text)} {b : Text} (h : Attributes xs b) :
    ((splitChar ';' b).filterMap fun t => if t = [] then none else parseAttribute t) = xs := by
  induction h with
  | none n =>
    rw [splitChar_none]
    · simp [parseAttribute_blanks]
    · intro hm
      exact absurd (List.mem_replicate.1 hm).2 (by decide)
  | one x a b c d hx =>
    rw [splitChar_none _ _ (writeAttr_chars hx a b c d ';' (by decide) (by simp))]
    simp [writeAttr_ne_nil, parseAttribute_write hx]
  | more x a b c d hx _ ih =>
    rw [splitChar_append _ _ _ (writeAttr_chars hx a b c d ';' (by decide) (by simp)), List.filterMap_cons,
      if_neg (writeAttr_ne_nil x a b c d), parseAttribute_write hx, ih]

theorem parseBlock_attributes {xs : List (Text × Text)} {b : Text} (h : Attributes xs b) : parseBlock b = dictOf xs := by
  rw [parseBlock, block_attributes h]
  rfl

theorem attributes_bracket {xs : List (Text × Text)} {b : Text} (h : Attributes xs b) : ']' ∉ b := by
  induction h with
  | none n =>
    intro hm
    exact absurd (List.mem_replicate.1 hm).2 (by decide)
  | one x a b c d hx => exact writeAttr_chars hx a b c d ']' (by decide) (by simp)
  | more x a b c d hx _ ih =>
    intro hm
    rcases List.mem_append.1 hm with hm | hm
    · exact writeAttr_chars hx a b c d ']' (by decide) (by simp) hm
    · rcases List.mem_cons.1 hm with hm | hm
      · exact absurd hm (by decide)
      · exact ih hm

/-! ### Rules -/

theorem heads_rule (n : Nat) {p b rest : Text} (hp : '{' ∉ p) (hf : ∀ c, p.head? = some c → c ≠ ' ')
    (hb : ']' ∉ b) (hr : ∀ c ∈ rest, c ≠ '}' ∧ c ≠ ']') :
    Heads ruleRe ⟨true, blanks n ++ p ++ '{' :: b ++ '}' :: rest, []⟩
      ⟨false, rest, [(t!"block", b), (t!"pattern", p)]⟩ := by
  have e : blanks n ++ p ++ '{' :: b ++ '}' :: rest = blanks n ++ (p ++ '{' :: (b ++ '}' :: rest)) := by simp
  rw [e]
  have hfirst : ∀ c, (p ++ '{' :: (b ++ '}' :: rest)).head? = some c → c ≠ ' ' := by
    intro c hc
    cases p with
    | nil =>
      simp at hc
      subst hc
      decide
    | cons d p => exact hf c (by simpa using hc)
  refine heads_seq (heads_bol _ _) (heads_seq (heads_blanks n hfirst _ _)
    (heads_seq (heads_group (q := ⟨_, '{' :: (b ++ '}' :: rest), []⟩) _ p
      (heads_star (stops_cons (mem_single _)) p (fun c hc => not_mem_single (by rintro rfl; exact hp hc)) _ _) rfl)
      (heads_seq (heads_blanks 0 (r := '{' :: (b ++ '}' :: rest)) (by simp) _ _)
        (heads_seq (heads_ch _ _ _ _) (heads_last _ b ?_ ?_ _ _)))))
  · intro x hx
    refine not_mem_single ?_
    rintro rfl
    rcases List.mem_append.1 hx with hx | hx
    · exact hb hx
    · rcases List.mem_cons.1 hx with hx | hx
      · exact absurd hx (by decide)
      · exact (hr _ hx).2 rfl
  · intro hm
    exact (hr _ hm).1 rfl

theorem parseRule_of {css s p b : Text} {q : Place} (hs : s ≠ []) (h : Heads ruleRe ⟨true, s, []⟩ q)
    (hg : q.groups = [(t!"block", b), (t!"pattern", p)]) (hp : p ≠ []) (hb : b ≠ []) :
    parseRule css s = .ok (some ⟨css, parsePattern p, parseBlock b⟩) := by
  rw [parseRule, if_neg hs, search_heads h]
  have e1 : (grp q.groups t!"pattern").getD [] = p := by rw [hg]; simp [grp, List.find?]
  have e2 : (grp q.groups t!"block").getD [] = b := by rw [hg]; simp [grp, List.find?]
  simp only [e1, e2, if_neg hp, if_neg hb]

theorem parseRule_line {css : Text} {ss : List Selector} {xs : List (Text × Text)} {s : Text} (h : RuleLine ss xs s) :
    parseRule css s = .ok (some ⟨css, ss, dictOf xs⟩) := by
  cases h with
  | mk n hs hx hb hr =>
    obtain ⟨c, r, hp, hc⟩ := selectors_first hs
    rw [parseRule_of (by simp) (heads_rule n (selectors_brace hs) ?_ (attributes_bracket hx) hr) rfl
      (by rw [hp]; simp) hb, parsePattern_selectors hs, parseBlock_attributes hx]
    intro d hd
    rw [hp] at hd
    simp at hd
    exact hd ▸ hc

theorem parseRule_hash {css : Text} {ss : List Selector} {xs : List (Text × Text)} {s : Text} (h : RuleLine ss xs s) :
    parseRule css ('#' :: s) = .ok (some ⟨css, ss, dictOf xs⟩) := by
  cases h with
  | mk n hs hx hb hr =>
    rename_i p b rest
    have e : '#' :: (blanks n ++ p ++ '{' :: b ++ '}' :: rest) =
        blanks 0 ++ ('#' :: (blanks n ++ p)) ++ '{' :: b ++ '}' :: rest := by simp [blanks]
    have hbr : '{' ∉ '#' :: (blanks n ++ p) := by
      intro hm
      rcases List.mem_cons.1 hm with hm | hm
      · exact absurd hm (by decide)
      rcases List.mem_append.1 hm with hm | hm
      · exact absurd (List.mem_replicate.1 hm).2 (by decide)
      · exact selectors_brace hs hm
    rw [e, parseRule_of (by simp) (heads_rule 0 hbr ?_ (attributes_bracket hx) hr) rfl (by simp) hb,
      parsePattern_hash hs, parseBlock_attributes hx]
    intro d hd
    simp at hd
    subst hd
    decide

/-! ### Dictionaries -/

theorem putText_new (n v : Text) (d : List (Text × Text)) (h : n ∉ d.map (·.1)) : putText n v d = d ++ [(n, v)] := by
  induction d with
  | nil => rfl
  | cons x d ih =>
    obtain ⟨m, w⟩ := x
    simp only [List.map_cons, List.mem_cons, not_or] at h
    rw [putText, if_neg (fun e => h.1 e.symm), ih h.2]
    rfl

theorem foldl_new (xs d : List (Text × Text)) (h : ((d ++ xs).map (·.1)).Nodup) :
    xs.foldl (fun d x => putText x.1 x.2 d) d = d ++ xs := by
  induction xs generalizing d with
  | nil => simp
  | cons x xs ih =>
    rw [List.foldl_cons, putText_new, ih]
    · simp
    · simpa using h
    · intro hm
      rw [List.map_append, List.nodup_append] at h
      exact h.2.2 _ hm _ (by simp) rfl

theorem dictOf_nodup {xs : List (Text × Text)} (h : (xs.map (·.1)).Nodup) : dictOf xs = xs := by
  rw [dictOf, foldl_new _ _ (by simpa using h)]
  rfl

theorem lookup_putText (n v m : Text) (d : List (Text × Text)) :
    (putText n v d).lookup m = if m = n then some v else d.lookup m := by
  induction d with
  | nil =>
    by_cases h : m = n <;> simp [putText, List.lookup, h]
  | cons x d ih =>
    obtain ⟨k, w⟩ := x
    rw [putText]
    by_cases hk : k = n
    · rw [if_pos hk]
      subst hk
      by_cases h : m = k
      · subst h; simp [List.lookup]
      · have : (m == k) = false := by simpa using h
        simp [List.lookup, this, h]
    · rw [if_neg hk]
      by_cases h : m = k
      · subst h
        simp [List.lookup, hk]
      · have : (m == k) = false := by simpa using h
        simp only [List.lookup, this, ih]

theorem lookup_foldl (m : Text) (xs d : List (Text × Text)) :
    (xs.foldl (fun d x => putText x.1 x.2 d) d).lookup m = (xs.reverse.lookup m).or (d.lookup m) := by
  induction xs generalizing d with
  | nil => simp
  | cons x xs ih =>
    rw [List.foldl_cons, ih, lookup_putText, List.reverse_cons, List.lookup_append]
    obtain ⟨n, v⟩ := x
    cases xs.reverse.lookup m with
    | some => rfl
    | none =>
      by_cases h : m = n
      · subst h; simp [List.lookup]
      · have : (m == n) = false := by simpa using h
        simp [List.lookup, this, h]

theorem lookup_dictOf (m : Text) (xs : List (Text × Text)) : (dictOf xs).lookup m = xs.reverse.lookup m := by
  rw [dictOf, lookup_foldl]
  simp

/-! ### Lines without a rule -/

theorem search_none_of (s : Text) (st : Bool) (h : ∀ (st : Bool) (t : Text), t <:+ s → ruleRe.all ⟨st, t, []⟩ = []) :
    searchFrom ruleRe st s = none := by
  induction s generalizing st with
  | nil => rw [searchFrom, h st [] ⟨[], rfl⟩]; rfl
  | cons c s ih =>
    rw [searchFrom_skip (h st _ ⟨[], rfl⟩)]
    exact ih _ fun st t ht => h st t (ht.trans ⟨[c], rfl⟩)

theorem rule_braces {st : Bool} {t : Text} {q : Place} (h : q ∈ ruleRe.all ⟨st, t, []⟩) :
    ∃ a b c, t = a ++ '{' :: b ++ '}' :: c ∧ '{' ∉ a ∧ ']' ∉ b := by
  obtain ⟨r, h1, h⟩ := mem_seq h
  obtain ⟨h0, rfl⟩ := mem_bol h1
  obtain ⟨r2, h2, h⟩ := mem_seq h
  obtain ⟨r3, h3, h⟩ := mem_seq h
  obtain ⟨r4, h4, h⟩ := mem_seq h
  obtain ⟨r5, h5, h⟩ := mem_seq h
  obtain ⟨r6, h6, h⟩ := mem_seq h
  obtain ⟨k3, _, h3, _, e3⟩ := mem_group h3
  obtain ⟨k6, _, h6, _, e6⟩ := mem_group h6
  obtain ⟨t2, _, e2, _, m2⟩ := repAll_set _ _ _ _ h2
  obtain ⟨t3, _, f3, _, m3⟩ := repAll_set _ _ _ _ h3
  obtain ⟨t4, _, e4, _, m4⟩ := repAll_set _ _ _ _ h4
  obtain ⟨e5, _⟩ := mem_ch h5
  obtain ⟨t6, _, f6, _, m6⟩ := repAll_set _ _ _ _ h6
  obtain ⟨e7, _⟩ := mem_ch h
  subst e3 e6
  refine ⟨t2 ++ t3 ++ t4, t6, q.rest, ?_, ?_, ?_⟩
  · simp only at e2 f3 e4 e5 f6 e7
    rw [e2, f3, e4, e5, f6, e7]
    simp
  · intro hm
    rcases List.mem_append.1 hm with hm | hm
    · rcases List.mem_append.1 hm with hm | hm
      · exact absurd ((charSet_single _ _).1 (m2 _ hm)) (by decide)
      · exact absurd (m3 _ hm) (by rw [mem_single]; simp)
    · exact absurd ((charSet_single _ _).1 (m4 _ hm)) (by decide)
  · intro hm
    exact absurd (m6 _ hm) (by rw [mem_single]; simp)

/-- Without `{` there is no rule. -/
theorem parseRule_none {css s : Text} (h : '{' ∉ s) : parseRule css s = .ok none := by
  rw [parseRule]
  split
  · rfl
  · rw [search, search_none_of]
    · rfl
    · intro st t ht
      rcases he : ruleRe.all ⟨st, t, []⟩ with _ | ⟨q, l⟩
      · rfl
      · obtain ⟨a, b, c, e, _⟩ := rule_braces (q := q) (by rw [he]; simp)
        exact absurd (ht.subset (by rw [e]; simp)) h

end Bglib.Img
