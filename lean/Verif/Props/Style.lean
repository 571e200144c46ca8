import Verif.Spec.Style
/-
Style rules and attributes: C37, C38.
-/
namespace Bglib
open Spec Img

/-! ### C37: rules match exactly what they say -/

/-- A selector: matches exactly the elements it fits. -/
theorem C37_selector (s : Selector) (e : Elem) (h : Comparable s e) :
    (SelFits s e ∧ s.isMatch e = .ok true) ∨ (¬ SelFits s e ∧ s.isMatch e = .ok false) := by
  unfold Selector.isMatch SelFits
  by_cases hn : e.name.text = s.element
  · rw [if_pos hn]
    have hd : ∀ (P : Prop), (P ∧ (∀ d, s.data = some d → d ∈ e.data) ∧
        (match s.data with | none => (.ok true : Py Bool) | some d => .ok (decide (d ∈ e.data))) = .ok true) ∨
        ((¬ ∀ d, s.data = some d → d ∈ e.data) ∧
        (match s.data with | none => (.ok true : Py Bool) | some d => .ok (decide (d ∈ e.data))) = .ok false) ∨ ¬ P := by
      intro P
      by_cases hP : P
      · cases hs : s.data with
        | none => exact Or.inl ⟨hP, by simp, rfl⟩
        | some d =>
          by_cases hm : d ∈ e.data
          · exact Or.inl ⟨hP, by simpa using hm, by simp [hm]⟩
          · exact Or.inr (Or.inl ⟨by simpa using hm, by simp [hm]⟩)
      · exact Or.inr (Or.inr hP)
    have hA : (s.attrMatch e = .ok true ∧ ∀ n t, s.attr = some (n, t) → ∃ v c, e.get n = some v ∧
          attlist e.name n = some c ∧ c.kind.parse none t = .ok v) ∨
        (s.attrMatch e = .ok false ∧ ¬ ∀ n t, s.attr = some (n, t) → ∃ v c, e.get n = some v ∧
          attlist e.name n = some c ∧ c.kind.parse none t = .ok v) := by
      unfold Selector.attrMatch
      cases hs : s.attr with
      | none => exact Or.inl ⟨rfl, by simp⟩
      | some p =>
        obtain ⟨n, t⟩ := p
        dsimp only
        cases hg : e.get n with
        | none =>
          refine Or.inr ⟨rfl, fun hh => ?_⟩
          obtain ⟨v, c, h1, _⟩ := hh n t rfl
          rw [hg] at h1
          simp at h1
        | some v =>
          dsimp only
          cases hc : attlist e.name n with
          | none =>
            refine Or.inr ⟨rfl, fun hh => ?_⟩
            obtain ⟨v, c, _, h2, _⟩ := hh n t rfl
            rw [hc] at h2
            simp at h2
          | some c =>
            obtain ⟨w, hw⟩ := h n t v c hs hg hc
            dsimp only
            rw [hw]
            by_cases hv : w = v
            · subst hv
              refine Or.inl ⟨by simp, ?_⟩
              intro n' t' hnt
              cases hnt
              exact ⟨w, c, hg, hc, hw⟩
            · refine Or.inr ⟨by simp [hv], fun hh => ?_⟩
              obtain ⟨v', c', h1, h2, h3⟩ := hh n t rfl
              rw [hg] at h1
              rw [hc] at h2
              cases h1
              cases h2
              rw [hw] at h3
              cases h3
              exact hv rfl
    rcases hA with ⟨ha, hb⟩ | ⟨ha, hb⟩
    · rw [ha]
      rcases hd True with ⟨_, h1, h2⟩ | ⟨h1, h2⟩ | h
      · exact Or.inl ⟨⟨hn, hb, h1⟩, h2⟩
      · exact Or.inr ⟨fun hh => h1 hh.2.2, h2⟩
      · exact absurd trivial h
    · rw [ha]
      exact Or.inr ⟨fun hh => hb hh.2.1, rfl⟩
  · rw [if_neg hn]
    exact Or.inr ⟨fun hh => hn hh.1, rfl⟩

theorem embeds_tail {f : Selector → Elem → Prop} {p : Selector} {ps : List Selector} {es : List Elem}
    (h : Embeds f (p :: ps) es) : Embeds f ps es := by
  generalize hq : p :: ps = q at h
  induction h generalizing p ps with
  | nil => simp at hq
  | take a as e es _ h _ => cases hq; exact .skip _ _ _ h
  | skip as e es _ ih => exact .skip _ _ _ (ih hq)

theorem embeds_append {f : Selector → Elem → Prop} {as bs : List Selector} {xs ys : List Elem}
    (h1 : Embeds f as xs) (h2 : Embeds f bs ys) : Embeds f (as ++ bs) (xs ++ ys) := by
  induction h1 with
  | nil es =>
    induction es with
    | nil => exact h2
    | cons e es ih => exact .skip _ _ _ ih
  | take p ps e es h _ ih => exact .take _ _ _ _ h ih
  | skip ps e es _ ih => exact .skip _ _ _ ih

theorem embeds_reverse {f : Selector → Elem → Prop} {ps : List Selector} {es : List Elem}
    (h : Embeds f ps es) : Embeds f ps.reverse es.reverse := by
  induction h with
  | nil => exact .nil _
  | take p ps e es h _ ih =>
    rw [List.reverse_cons, List.reverse_cons]
    exact embeds_append ih (.take _ _ _ _ h (.nil _))
  | skip ps e es _ ih =>
    rw [List.reverse_cons]
    have := embeds_append ih (.nil (fits := f) [e])
    rwa [List.append_nil] at this

/-- The loop finds the ancestors whenever there are some: taking the first that fits loses nothing. -/
theorem descend_spec (ps : List Selector) (es : List Elem) (hne : ps ≠ [])
    (h : ∀ s ∈ ps, ∀ e ∈ es, Comparable s e) :
    (Embeds SelFits ps es ∧ descend ps es = .ok true) ∨ (¬ Embeds SelFits ps es ∧ descend ps es = .ok false) := by
  induction es generalizing ps with
  | nil =>
    right
    refine ⟨fun hh => ?_, by cases ps <;> rfl⟩
    cases hh
    exact hne rfl
  | cons e es ih =>
    cases ps with
    | nil => exact absurd rfl hne
    | cons p ps =>
      unfold descend
      rcases C37_selector p e (h p (by simp) e (by simp)) with ⟨hf, hm⟩ | ⟨hf, hm⟩
      · rw [hm]
        dsimp only
        by_cases hps : ps = []
        · subst hps
          rw [if_pos rfl]
          exact Or.inl ⟨.take _ _ _ _ hf (.nil _), rfl⟩
        · rw [if_neg hps]
          rcases ih ps hps (fun s hs e' he => h s (by simp [hs]) e' (by simp [he])) with ⟨h1, h2⟩ | ⟨h1, h2⟩
          · exact Or.inl ⟨.take _ _ _ _ hf h1, h2⟩
          · refine Or.inr ⟨fun hh => h1 ?_, h2⟩
            generalize hq : p :: ps = q at hh
            cases hh with
            | nil => simp at hq
            | take a as _ _ _ h => cases hq; exact h
            | skip _ _ _ h => subst hq; exact embeds_tail h
      · rw [hm]
        dsimp only
        rcases ih (p :: ps) (by simp) (fun s hs e' he => h s hs e' (by simp [he])) with ⟨h1, h2⟩ | ⟨h1, h2⟩
        · exact Or.inl ⟨.skip _ _ _ h1, h2⟩
        · refine Or.inr ⟨fun hh => h1 ?_, h2⟩
          generalize hq : p :: ps = q at hh
          cases hh with
          | nil => simp at hq
          | take a as _ _ h' _ => cases hq; exact absurd h' hf
          | skip _ _ _ h => subst hq; exact h

/-- A rule matches an element, given by the path from the root, exactly if its last selector fits the
element and the others fit ancestors in their order. -/
theorem C37_partial (css : Text) (ps : List Selector) (p : Selector) (block : List (Text × Text))
    (anc : List Elem) (e : Elem)
    (h : ∀ s ∈ ps ++ [p], ∀ x ∈ anc ++ [e], Comparable s x) :
    (Rule.isMatch ⟨css, ps ++ [p], block⟩ (anc ++ [e]) = .ok true ↔ SelFits p e ∧ Embeds SelFits ps anc) ∧
    (Rule.isMatch ⟨css, ps ++ [p], block⟩ (anc ++ [e]) = .ok false ↔ ¬ (SelFits p e ∧ Embeds SelFits ps anc)) := by
  have key : (Rule.isMatch ⟨css, ps ++ [p], block⟩ (anc ++ [e]) = .ok true ∧ (SelFits p e ∧ Embeds SelFits ps anc)) ∨
      (Rule.isMatch ⟨css, ps ++ [p], block⟩ (anc ++ [e]) = .ok false ∧ ¬ (SelFits p e ∧ Embeds SelFits ps anc)) := by
    unfold Rule.isMatch
    rw [List.reverse_append, List.reverse_append, List.reverse_singleton, List.reverse_singleton,
      List.singleton_append, List.singleton_append]
    dsimp only
    rcases C37_selector p e (h p (by simp) e (by simp)) with ⟨hf, hm⟩ | ⟨hf, hm⟩
    · rw [hm]
      dsimp only
      by_cases hps : ps.reverse = []
      · rw [if_pos hps]
        have : ps = [] := by simpa using hps
        subst this
        exact Or.inl ⟨rfl, hf, .nil _⟩
      · rw [if_neg hps]
        rcases descend_spec ps.reverse anc.reverse hps (fun s hs x hx => h s (by simp at hs; simp [hs]) x
          (by simp at hx; simp [hx])) with ⟨h1, h2⟩ | ⟨h1, h2⟩
        · have := embeds_reverse h1
          rw [List.reverse_reverse, List.reverse_reverse] at this
          exact Or.inl ⟨h2, hf, this⟩
        · exact Or.inr ⟨h2, fun hh => h1 (embeds_reverse hh.2)⟩
    · rw [hm]
      exact Or.inr ⟨rfl, fun hh => hf hh.1⟩
  rcases key with ⟨h1, h2⟩ | ⟨h1, h2⟩
  · refine ⟨⟨fun _ => h2, fun _ => h1⟩, ⟨fun hh => ?_, fun hh => absurd h2 hh⟩⟩
    rw [h1] at hh
    exact absurd hh (by decide)
  · refine ⟨⟨fun hh => ?_, fun hh => absurd hh h2⟩, ⟨fun _ => h2, fun _ => h1⟩⟩
    rw [h1] at hh
    exact absurd hh (by decide)

/-- Without the condition: a selector that compares an image or font with a value raises an exception, and
so does a number that is not one.  And every value of a switch means the same: `[flip=False]` matches what
is flipped. -/
theorem C37_false :
    (∃ s e, ∃ t : Text, e.get t!"image" = some (.str t) ∧ s = Selector.mk t!"board" (some (t!"image", t)) none ∧
      Rule.isMatch ⟨[], [s], []⟩ [e] = .error .attributeError) ∧
    (∃ e, Rule.isMatch ⟨[], [⟨t!"board", some (t!"x", t!"left"), none⟩], []⟩ [e] = .error .valueError) ∧
    (∃ e, e.get t!"flip" = some (.bool true) ∧
      Rule.isMatch ⟨[], [⟨t!"board", some (t!"flip", t!"False"), none⟩], []⟩ [e] = .ok true) :=
  ⟨⟨_, ⟨.board, [(t!"image", .str t!"a.png")], []⟩, t!"a.png", rfl, rfl, by decide⟩,
   ⟨⟨.board, [(t!"x", .int 1)], []⟩, by decide⟩,
   ⟨⟨.board, [(t!"flip", .bool true)], []⟩, rfl, by decide⟩⟩

/-- Non-vacuity: the rule of the test `css_apply_test`. -/
example : Rule.isMatch ⟨[], [⟨t!"point", some (t!"parity", t!"even"), none⟩,
      ⟨t!"chequer", some (t!"player", t!"him"), some t!"1"⟩], []⟩
    [⟨.board, [], []⟩, ⟨.point, [(t!"parity", .str t!"even")], []⟩,
     ⟨.chequer, [(t!"player", .str t!"him")], [t!"1"]⟩] = .ok true := by decide

example : Rule.isMatch ⟨[], [⟨t!"point", some (t!"parity", t!"even"), none⟩,
      ⟨t!"chequer", some (t!"player", t!"him"), some t!"2"⟩], []⟩
    [⟨.board, [], []⟩, ⟨.point, [(t!"parity", .str t!"even")], []⟩,
     ⟨.chequer, [(t!"player", .str t!"him")], [t!"1"]⟩] = .ok false := by decide

/-! ### C38: the value of an attribute -/

/-- What every element has is the same for all of them. -/
theorem attlist_base (e : EName) (n : Text) (c : AttrClass) (h : baseAttlist n = some c) :
    attlist e n = some c := by unfold attlist; rw [h]

/-- An attribute that every element has: its own value, else that of the nearest ancestor if it is
inherited, else the default. -/
theorem C38_base (n : Text) (c : AttrClass) (h : baseAttlist n = some c) (e : Elem) (up : List Elem) :
    lookupAttr n (e :: up) = effective c n (e :: up) := by
  unfold effective
  by_cases hi : c.inherit = true
  · rw [if_pos hi]
    induction up generalizing e with
    | nil =>
      unfold lookupAttr
      rw [attlist_base e.name n c h]
      cases hg : e.get n with
      | some v => simp [nearest, hg]
      | none => simp [nearest, hg]; cases c.default <;> rfl
    | cons e' up ih =>
      unfold lookupAttr
      rw [attlist_base e.name n c h]
      dsimp only
      cases hg : e.get n with
      | some v => simp [nearest, hg]
      | none =>
        have hn : nearest n (e :: e' :: up) = nearest n (e' :: up) := by
          simp [nearest, List.findSome?_cons, hg]
        simp only [hi, List.isEmpty_cons, Bool.not_false, Bool.and_self, if_true]
        rw [hn]
        exact ih e'
  · rw [if_neg hi]
    unfold lookupAttr
    rw [attlist_base e.name n c h]
    have hi' : c.inherit = false := by simpa using hi
    cases hg : e.get n with
    | some v => simp [hg]
    | none => simp [hg, hi']; cases c.default <;> rfl

/-- An attribute that is not inherited: the own value or else the default, for every element that can have
it. -/
theorem C38_own (n : Text) (c : AttrClass) (e : Elem) (up : List Elem) (h : attlist e.name n = some c)
    (hi : c.inherit = false) : lookupAttr n (e :: up) = effective c n (e :: up) := by
  unfold effective
  rw [if_neg (by simp [hi])]
  unfold lookupAttr
  rw [h]
  cases hg : e.get n with
  | some v => simp [hg]
  | none => simp [hg, hi]; cases c.default <;> rfl

theorem get_put (n m : Text) (v : Value) (l : List (Text × Value)) :
    (putAttr n v l).lookup m = if m = n then some v else l.lookup m := by
  induction l with
  | nil =>
    simp only [putAttr, List.lookup_cons, List.lookup_nil]
    by_cases h : m = n
    · simp [h]
    · have : (m == n) = false := by simpa using h
      simp [h, this]
  | cons p l ih =>
    obtain ⟨k, w⟩ := p
    simp only [putAttr]
    by_cases hk : k = n
    · subst hk
      rw [if_pos rfl]
      simp only [List.lookup_cons]
      by_cases h : m = k
      · simp [h]
      · have : (m == k) = false := by simpa using h
        simp [h, this]
    · rw [if_neg hk]
      simp only [List.lookup_cons, ih]
      by_cases h : m = k
      · subst h
        simp [hk]
      · have : (m == k) = false := by simpa using h
        simp [this]

theorem apply1_spec (css : Text) (e e' : Elem) (n s : Text) (h : e.apply1 css n s = .ok e') :
    e'.name = e.name ∧ (∀ m, m ≠ n → e'.get m = e.get m) ∧
    ∃ c v, attlist e.name n = some c ∧ c.kind.parse (some css) s = .ok v ∧ e'.get n = some v := by
  unfold Elem.apply1 at h
  cases hc : attlist e.name n with
  | none => rw [hc] at h; simp at h
  | some c =>
    rw [hc] at h
    dsimp only at h
    cases hp : c.kind.parse (if (e.get n).isSome then none else some css) s with
    | error x => rw [hp] at h; simp at h
    | ok v =>
      rw [hp] at h
      dsimp only at h
      unfold Elem.set at h
      rw [hc] at h
      dsimp only at h
      split at h
      · cases h
        refine ⟨rfl, fun m hm => ?_, c, v, rfl, ?_, ?_⟩
        · show (putAttr n v e.attrs).lookup m = _
          rw [get_put, if_neg hm]; rfl
        · by_cases hs : (e.get n).isSome = true
          · rw [if_pos hs] at hp
            cases hk : c.kind <;> rw [hk] at hp <;> first | exact hp | (simp [Kind.parse] at hp)
          · rw [if_neg hs] at hp; exact hp
        · show (putAttr n v e.attrs).lookup n = _
          rw [get_put, if_pos rfl]
      · simp at h

theorem apply_other (css : Text) (d : List (Text × Text)) (e e' : Elem) (h : e.apply css d = .ok e') :
    e'.name = e.name ∧ ∀ m, (∀ p ∈ d, p.1 ≠ m) → e'.get m = e.get m := by
  induction d generalizing e with
  | nil => cases h; exact ⟨rfl, fun _ _ => rfl⟩
  | cons p d ih =>
    obtain ⟨n, s⟩ := p
    simp only [Elem.apply] at h
    cases h1 : e.apply1 css n s with
    | error x => rw [h1] at h; simp at h
    | ok e1 =>
      rw [h1] at h
      obtain ⟨k1, k2, _⟩ := apply1_spec css e e1 n s h1
      obtain ⟨k3, k4⟩ := ih e1 h
      refine ⟨k3.trans k1, fun m hm => ?_⟩
      rw [k4 m (fun p hp => hm p (by simp [hp])), k2 m (fun hmn => hm (n, s) (by simp) hmn.symm)]

theorem apply_sets (css : Text) (d : List (Text × Text)) (hd : (d.map (·.1)).Nodup) (e e' : Elem)
    (h : e.apply css d = .ok e') (n s : Text) (hs : (n, s) ∈ d) :
    ∃ c v, attlist e.name n = some c ∧ c.kind.parse (some css) s = .ok v ∧ e'.get n = some v := by
  induction d generalizing e with
  | nil => simp at hs
  | cons p d ih =>
    obtain ⟨m, t⟩ := p
    simp only [Elem.apply] at h
    rw [List.map_cons, List.nodup_cons] at hd
    cases h1 : e.apply1 css m t with
    | error x => rw [h1] at h; simp at h
    | ok e1 =>
      rw [h1] at h
      obtain ⟨k1, k2, c, v, k3, k4, k5⟩ := apply1_spec css e e1 m t h1
      rcases List.mem_cons.1 hs with hs | hs
      · cases hs
        refine ⟨c, v, k3, k4, ?_⟩
        rw [(apply_other css d e1 e' h).2 n (fun p hp hpn => hd.1 (List.mem_map.2 ⟨p, hp, hpn⟩)), k5]
      · rw [← k1]
        exact ih hd.2 e1 h hs

theorem rules_other (anc : List Elem) (rs : List Rule) (e e' : Elem) (h : applyRules anc e rs = .ok e') :
    e'.name = e.name ∧ ∀ m, (∀ r ∈ rs, ∀ p ∈ r.block, p.1 ≠ m) → e'.get m = e.get m := by
  induction rs generalizing e with
  | nil => cases h; exact ⟨rfl, fun _ _ => rfl⟩
  | cons r rs ih =>
    simp only [applyRules] at h
    cases h1 : r.apply anc e with
    | error x => rw [h1] at h; simp at h
    | ok e1 =>
      rw [h1] at h
      obtain ⟨k3, k4⟩ := ih e1 h
      have hr : e1.name = e.name ∧ ∀ m, (∀ p ∈ r.block, p.1 ≠ m) → e1.get m = e.get m := by
        unfold Rule.apply at h1
        split at h1
        · simp at h1
        · cases h1; exact ⟨rfl, fun _ _ => rfl⟩
        · exact apply_other _ _ _ _ h1
      refine ⟨k3.trans hr.1, fun m hm => ?_⟩
      rw [k4 m (fun r' hr' => hm r' (by simp [hr'])), hr.2 m (hm r (by simp))]

theorem rules_append (anc : List Elem) (as bs : List Rule) (e : Elem) :
    applyRules anc e (as ++ bs) = match applyRules anc e as with
      | .error x => .error x
      | .ok e1 => applyRules anc e1 bs := by
  induction as generalizing e with
  | nil => rfl
  | cons r as ih =>
    simp only [List.cons_append, applyRules]
    cases r.apply anc e with
    | error x => rfl
    | ok e1 => exact ih e1

/-- The last matching rule that sets an attribute decides, provided the rules can be applied at all. -/
theorem C38_last_partial (anc : List Elem) (pre post : List Rule) (r : Rule) (e e1 e2 : Elem)
    (hb : (r.block.map (·.1)).Nodup) (h1 : applyRules anc e pre = .ok e1)
    (hm : r.isMatch (anc ++ [e1]) = .ok true) (h2 : applyRules anc e (pre ++ r :: post) = .ok e2)
    (n s : Text) (hs : (n, s) ∈ r.block) (hp : ∀ r' ∈ post, ∀ p ∈ r'.block, p.1 ≠ n) :
    ∃ c v, attlist e.name n = some c ∧ c.kind.parse (some r.css) s = .ok v ∧ e2.get n = some v := by
  rw [rules_append, h1] at h2
  simp only [applyRules] at h2
  cases h3 : r.apply anc e1 with
  | error x => rw [h3] at h2; simp at h2
  | ok e3 =>
    rw [h3] at h2
    have h4 := (rules_other anc post e3 e2 h2).2 n hp
    unfold Rule.apply at h3
    rw [hm] at h3
    obtain ⟨c, v, k1, k2, k3⟩ := apply_sets r.css r.block hb e1 e3 h3 n s hs
    rw [(rules_other anc pre e e1 h1).1] at k1
    exact ⟨c, v, k1, k2, by rw [h4, k3]⟩

/-- An attribute can be set exactly if the element has it and the value is of its kind; it is then there, and the
others are as before. -/
theorem C38_set (e : Elem) (n : Text) (v : Value) :
    (∀ e', e.set n v = .ok e' → (∃ c, attlist e.name n = some c ∧ c.kind.accepts v = true) ∧ e'.name = e.name ∧
      e'.data = e.data ∧ e'.get n = some v ∧ ∀ m, m ≠ n → e'.get m = e.get m) ∧
    (∀ c, attlist e.name n = some c → c.kind.accepts v = true → ∃ e', e.set n v = .ok e') := by
  refine ⟨fun e' h => ?_, fun c h h' => ⟨_, by unfold Elem.set; simp only [h]; rw [if_pos h']⟩⟩
  unfold Elem.set at h
  cases hc : attlist e.name n with
  | none => rw [hc] at h; cases h
  | some c =>
    rw [hc] at h
    dsimp only at h
    split at h
    · next ha =>
      cases h
      exact ⟨⟨c, rfl, ha⟩, rfl, rfl, (get_put n n v e.attrs).trans (if_pos rfl),
        fun m hm => (get_put n m v e.attrs).trans (if_neg hm)⟩
    · cases h

example : (Elem.set ⟨.die, [], []⟩ t!"diestyle" (.str t!"round")) = .error .typeError ∧
    (Elem.set ⟨.die, [], []⟩ t!"diestyle" (.str t!"numeric")) = .ok ⟨.die, [(t!"diestyle", .str t!"numeric")], []⟩ := by decide

/-- False in general.  `fill` of a point in a position without own value is not the default but an
AttributeError.  A second rule that sets the image (or font) of an element does not override the first:
it raises an AttributeError.  And `False` is taken for true. -/
theorem C38_false :
    (∃ e p c, attlist e.name t!"fill" = some c ∧ c.default = some (.bool true) ∧ c.inherit = true ∧
      lookupAttr t!"fill" [e] = .ok (.bool true) ∧ lookupAttr t!"fill" [e, p] = .error .attributeError) ∧
    (∃ e r r', applyRules [] e [r] = .ok ⟨.board, [(t!"image", .str t!"theme/a.png")], []⟩ ∧
      applyRules [] e [r'] = .ok ⟨.board, [(t!"image", .str t!"theme/b.png")], []⟩ ∧
      applyRules [] e [r, r'] = .error .attributeError) ∧
    (∃ e, applyRules [] e [⟨[], [⟨t!"board", none, none⟩], [(t!"flip", t!"False")]⟩] =
      .ok ⟨.board, [(t!"flip", .bool true)], []⟩) :=
  ⟨⟨⟨.point, [], []⟩, ⟨.position, [], []⟩, _, rfl, rfl, rfl, by decide, by decide⟩,
   ⟨⟨.board, [], []⟩, ⟨t!"theme/x.css", [⟨t!"board", none, none⟩], [(t!"image", t!"uri(\"a.png\")")]⟩,
    ⟨t!"theme/x.css", [⟨t!"board", none, none⟩], [(t!"image", t!"uri(\"b.png\")")]⟩, by decide, by decide, by decide⟩,
   ⟨⟨.board, [], []⟩, by decide⟩⟩

/-- Non-vacuity: the position of a chequer comes from the rules and its width from the point. -/
example : lookupAttr t!"width" [⟨.chequer, [(t!"x", .int 4)], []⟩, ⟨.point, [(t!"width", .int 18)], []⟩,
    ⟨.position, [(t!"width", .int 291)], []⟩] = .ok (.int 18) := by decide

example : applyRules [] ⟨.board, [], []⟩ [
      ⟨[], [⟨t!"board", none, none⟩], [(t!"x", t!"1"), (t!"y", t!"2")]⟩,
      ⟨[], [⟨t!"board", none, none⟩], [(t!"x", t!"3")]⟩,
      ⟨[], [⟨t!"bar", none, none⟩], [(t!"x", t!"4")]⟩] =
    .ok ⟨.board, [(t!"x", .int 3), (t!"y", .int 2)], []⟩ := by decide

end Bglib
