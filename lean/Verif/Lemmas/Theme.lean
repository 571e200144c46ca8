import Verif.Lemmas.Draw
import Verif.Model.Css
import Verif.Props.Picture
/-
Styles that can draw every board: the rules see the text of an element only through the texts they mention.
-/
namespace Bglib
open Spec Img

theorem loadCss_append {css : Text} {a b : List Text} {x y : List Rule} (ha : loadCss css a = .ok x)
    (hb : loadCss css b = .ok y) : loadCss css (a ++ b) = .ok (x ++ y) := by
  induction a generalizing x with
  | nil => simp only [loadCss, Except.ok.injEq] at ha; subst ha; exact hb
  | cons l a ih =>
    simp only [loadCss, List.cons_append, bind, Except.bind, pure, Except.pure] at ha ⊢
    cases hr : parseRule css l with
    | error e => rw [hr] at ha; simp at ha
    | ok r =>
      rw [hr] at ha
      dsimp only at ha ⊢
      cases hl : loadCss css a with
      | error e => rw [hl] at ha; simp at ha
      | ok z =>
        rw [hl] at ha
        rw [ih hl]
        simp only [Except.ok.injEq] at ha ⊢
        subst ha
        cases r <;> rfl

/-! ### The text of an element and the rules -/

/-- The same element with another text. -/
def withData (d : List Text) (e : Elem) : Elem := { e with data := d }

theorem set_data (e : Elem) (d : List Text) (n : Text) (v : Value) :
    (withData d e).set n v = (e.set n v).map (withData d) := by
  unfold Elem.set withData
  dsimp only
  cases attlist e.name n with
  | none => rfl
  | some c => dsimp only; split <;> rfl

theorem apply1_data (css : Text) (e : Elem) (d : List Text) (n s : Text) :
    (withData d e).apply1 css n s = (e.apply1 css n s).map (withData d) := by
  unfold Elem.apply1
  have hg : (withData d e).get n = e.get n := rfl
  have hn : (withData d e).name = e.name := rfl
  rw [hg, hn]
  cases attlist e.name n with
  | none => rfl
  | some c =>
    dsimp only
    cases c.kind.parse (if (e.get n).isSome = true then none else some css) s with
    | error x => rfl
    | ok v => exact set_data e d n v

theorem apply_data (css : Text) (e : Elem) (d : List Text) (l : List (Text × Text)) :
    (withData d e).apply css l = (e.apply css l).map (withData d) := by
  induction l generalizing e with
  | nil => rfl
  | cons x l ih =>
    obtain ⟨n, s⟩ := x
    simp only [Elem.apply]
    rw [apply1_data]
    cases e.apply1 css n s with
    | error x => rfl
    | ok e' => exact ih e'

theorem set_keeps {e e' : Elem} {n : Text} {v : Value} (h : e.set n v = .ok e') :
    e'.name = e.name ∧ e'.data = e.data := by
  unfold Elem.set at h
  cases hc : attlist e.name n with
  | none => rw [hc] at h; simp at h
  | some c =>
    rw [hc] at h
    dsimp only at h
    split at h
    · simp only [Except.ok.injEq] at h; subst h; exact ⟨rfl, rfl⟩
    · simp at h

theorem apply_keeps {css : Text} {e e' : Elem} {l : List (Text × Text)} (h : e.apply css l = .ok e') :
    e'.name = e.name ∧ e'.data = e.data := by
  induction l generalizing e with
  | nil => simp only [Elem.apply, Except.ok.injEq] at h; subst h; exact ⟨rfl, rfl⟩
  | cons x l ih =>
    obtain ⟨n, s⟩ := x
    simp only [Elem.apply] at h
    cases h1 : e.apply1 css n s with
    | error x => rw [h1] at h; simp at h
    | ok e1 =>
      rw [h1] at h
      obtain ⟨a, b⟩ := ih h
      unfold Elem.apply1 at h1
      cases hc : attlist e.name n with
      | none => rw [hc] at h1; simp at h1
      | some c =>
        rw [hc] at h1
        dsimp only at h1
        cases hp : c.kind.parse (if (e.get n).isSome = true then none else some css) s with
        | error x => rw [hp] at h1; simp at h1
        | ok v =>
          rw [hp] at h1
          obtain ⟨a', b'⟩ := set_keeps h1
          exact ⟨a.trans a', b.trans b'⟩

theorem rule_keeps {r : Rule} {anc : List Elem} {e e' : Elem} (h : r.apply anc e = .ok e') :
    e'.name = e.name ∧ e'.data = e.data := by
  unfold Rule.apply at h
  cases hm : r.isMatch (anc ++ [e]) with
  | error x => rw [hm] at h; simp at h
  | ok b =>
    rw [hm] at h
    cases b with
    | false => simp only [Except.ok.injEq] at h; subst h; exact ⟨rfl, rfl⟩
    | true => exact apply_keeps h

theorem rules_keep {rules : List Rule} {anc : List Elem} {e e' : Elem} (h : applyRules anc e rules = .ok e') :
    e'.name = e.name ∧ e'.data = e.data := by
  induction rules generalizing e with
  | nil => simp only [applyRules, Except.ok.injEq] at h; subst h; exact ⟨rfl, rfl⟩
  | cons r rs ih =>
    simp only [applyRules] at h
    cases h1 : r.apply anc e with
    | error x => rw [h1] at h; simp at h
    | ok e1 =>
      rw [h1] at h
      obtain ⟨a, b⟩ := ih h
      obtain ⟨a', b'⟩ := rule_keeps h1
      exact ⟨a.trans a', b.trans b'⟩

/-- A selector does not tell two texts of an element apart. -/
def Blind (s : Selector) (n : EName) (d d' : List Text) : Prop :=
  s.element = n.text → ∀ t, s.data = some t → (t ∈ d ↔ t ∈ d')

theorem select_data (s : Selector) (e : Elem) (d : List Text) (h : Blind s e.name d e.data) :
    s.isMatch (withData d e) = s.isMatch e := by
  have ha : s.attrMatch (withData d e) = s.attrMatch e := rfl
  unfold Selector.isMatch
  rw [ha]
  have hn : (withData d e).name = e.name := rfl
  rw [hn]
  by_cases he : e.name.text = s.element
  · rw [if_pos he, if_pos he]
    cases s.attrMatch e with
    | error x => rfl
    | ok b =>
      cases b with
      | false => rfl
      | true =>
        dsimp only
        cases hs : s.data with
        | none => rfl
        | some t =>
          dsimp only
          have := h he.symm t hs
          have hd : (withData d e).data = d := rfl
          rw [hd]
          simp [this]
  · rw [if_neg he, if_neg he]

theorem rule_data (r : Rule) (anc : List Elem) (e : Elem) (d : List Text)
    (h : ∀ s ∈ r.pattern, Blind s e.name d e.data) :
    r.apply anc (withData d e) = (r.apply anc e).map (withData d) := by
  have hm : r.isMatch (anc ++ [withData d e]) = r.isMatch (anc ++ [e]) := by
    unfold Rule.isMatch
    rw [List.reverse_append, List.reverse_append]
    simp only [List.reverse_cons, List.reverse_nil, List.nil_append, List.singleton_append]
    cases hp : r.pattern.reverse with
    | nil => rfl
    | cons p ps =>
      have : p ∈ r.pattern := by
        rw [← List.mem_reverse, hp]; exact List.mem_cons_self
      simp only
      rw [select_data p e d (h p this)]
  unfold Rule.apply
  rw [hm]
  cases r.isMatch (anc ++ [e]) with
  | error x => rfl
  | ok b =>
    cases b with
    | false => rfl
    | true => exact apply_data _ _ _ _

theorem rules_data (rules : List Rule) (anc : List Elem) (e : Elem) (d : List Text)
    (h : ∀ r ∈ rules, ∀ s ∈ r.pattern, Blind s e.name d e.data) :
    applyRules anc (withData d e) rules = (applyRules anc e rules).map (withData d) := by
  induction rules generalizing e with
  | nil => rfl
  | cons r rs ih =>
    simp only [applyRules]
    rw [rule_data r anc e d (h r List.mem_cons_self)]
    cases hr : r.apply anc e with
    | error x => rfl
    | ok e' =>
      obtain ⟨a, b⟩ := rule_keeps hr
      apply ih e'
      rw [a, b]
      exact fun r' hr' => h r' (List.mem_cons_of_mem _ hr')

/-! ### The rules for one kind of element -/

/-- The rule ends with a selector for this kind; an empty pattern counts too. -/
def concerns (n : EName) (r : Rule) : Bool :=
  match r.pattern.getLast? with
  | none => true
  | some s => decide (s.element = n.text)

theorem not_concerns (n : EName) (r : Rule) (anc : List Elem) (e : Elem) (hn : e.name = n) (h : concerns n r = false) :
    r.apply anc e = .ok e := by
  unfold concerns at h
  cases hp : r.pattern.getLast? with
  | none => rw [hp] at h; simp at h
  | some s =>
    rw [hp] at h
    simp only [decide_eq_false_iff_not] at h
    have : ∃ ps, r.pattern.reverse = s :: ps := by
      rw [← List.head?_reverse] at hp
      cases hr : r.pattern.reverse with
      | nil => rw [hr] at hp; simp at hp
      | cons a l => rw [hr] at hp; simp at hp; exact ⟨l, by rw [hp]⟩
    obtain ⟨ps, hps⟩ := this
    have hm : s.isMatch e = .ok false := by
      unfold Selector.isMatch
      rw [if_neg (by rw [hn]; exact fun h' => h h'.symm)]
    unfold Rule.apply Rule.isMatch
    simp only [List.reverse_append, List.reverse_cons, List.reverse_nil, List.nil_append, List.singleton_append, hps, hm]

theorem rules_filter (rules : List Rule) (anc : List Elem) (e : Elem) (n : EName) (hn : e.name = n) :
    applyRules anc e (rules.filter (concerns n)) = applyRules anc e rules := by
  induction rules generalizing e with
  | nil => rfl
  | cons r rs ih =>
    by_cases hc : concerns n r = true
    · rw [List.filter_cons_of_pos hc]
      simp only [applyRules]
      cases hr : r.apply anc e with
      | error x => rfl
      | ok e' => exact ih e' ((rule_keeps hr).1.trans hn)
    · rw [List.filter_cons_of_neg hc]
      rw [applyRules, not_concerns n r anc e hn (by simpa using hc)]
      exact ih e hn

/-! ### Trees of which every element is good -/

mutual
/-- Every element of the tree, with its ancestors, is such. -/
def Each (P : List Elem → Prop) (up : List Elem) : Tree → Prop
  | .node e kids => P (e :: up) ∧ EachAll P (e :: up) kids
def EachAll (P : List Elem → Prop) (up : List Elem) : List Tree → Prop
  | [] => True
  | t :: ts => Each P up t ∧ EachAll P up ts
end

/-- The attributes of an element are good, and its text can be drawn. -/
def Fine (good : List Elem → Bool) : List Elem → Prop
  | [] => False
  | e :: up => good (e :: up) = true ∧ dataReady e

/-- A part of the picture can be styled, and its elements are good. -/
def TreeIs (good : List Elem → Bool) (rules : List Rule) (anc : List Elem) (t : Tree) : Prop :=
  ∃ t', t.styled rules anc = .ok t' ∧ Each (Fine good) anc.reverse t'

theorem kids_is (good : List Elem → Bool) (rules : List Rule) (anc : List Elem) (ts : List Tree)
    (h : ∀ t ∈ ts, TreeIs good rules anc t) :
    ∃ ts', styledAll rules anc ts = .ok ts' ∧ EachAll (Fine good) anc.reverse ts' := by
  induction ts with
  | nil => exact ⟨[], rfl, trivial⟩
  | cons t ts ih =>
    obtain ⟨t', h1, h2⟩ := h t List.mem_cons_self
    obtain ⟨ts', h3, h4⟩ := ih fun x hx => h x (List.mem_cons_of_mem _ hx)
    exact ⟨t' :: ts', by simp only [styledAll, h1, h3], h2, h4⟩

theorem node_is (good : List Elem → Bool) (rules : List Rule) (anc : List Elem) (e e' : Elem) (kids : List Tree)
    (hr : applyRules anc e rules = .ok e') (ha : good (e' :: anc.reverse) = true) (hd : dataReady e')
    (hk : ∀ k ∈ kids, TreeIs good rules (anc ++ [e']) k) : TreeIs good rules anc (.node e kids) := by
  obtain ⟨ks, h1, h2⟩ := kids_is good rules (anc ++ [e']) kids hk
  rw [List.reverse_append, List.reverse_singleton, List.singleton_append] at h2
  exact ⟨.node e' ks, by simp only [Tree.styled, hr, h1], ⟨ha, hd⟩, h2⟩

mutual
theorem each_drawn (scale : Int → Int) (up : List Elem) (t : Tree) (h : Each (Fine attrsReady) up t) :
    ∃ ops, t.drawn scale up = .ok ops := by
  cases t with
  | node e kids =>
    obtain ⟨h1, h2⟩ := h
    obtain ⟨a, ha⟩ := draw_ok scale e up h1.1 h1.2
    obtain ⟨b, hb⟩ := eachAll_drawn scale (e :: up) kids h2
    exact ⟨a ++ b, by simp only [Tree.drawn, ha, hb]⟩
theorem eachAll_drawn (scale : Int → Int) (up : List Elem) (ts : List Tree) (h : EachAll (Fine attrsReady) up ts) :
    ∃ ops, drawnAll scale up ts = .ok ops := by
  cases ts with
  | nil => exact ⟨[], rfl⟩
  | cons t ts =>
    obtain ⟨h1, h2⟩ := h
    obtain ⟨a, ha⟩ := each_drawn scale up t h1
    obtain ⟨b, hb⟩ := eachAll_drawn scale up ts h2
    exact ⟨a ++ b, by simp only [drawnAll, ha, hb]⟩
end

/-- A part of the picture can be styled and drawn at any magnification. -/
def TreeOk (rules : List Rule) (anc : List Elem) (t : Tree) : Prop :=
  ∃ t', t.styled rules anc = .ok t' ∧ ∀ scale, ∃ ops, t'.drawn scale anc.reverse = .ok ops

/-! ### Checking the elements with a text -/

/-- The texts mentioned for a kind of element. -/
def mentioned (n : EName) (r : Rule) : List Text :=
  r.pattern.filterMap fun s => if s.element = n.text then s.data else none

/-- The texts a style tells apart for a kind of element. -/
def classes (rules : List Rule) (n : EName) : List Text := [] :: rules.flatMap (mentioned n)

/-- An element with one text is ready after styling. -/
def readyWith (good : List Elem → Bool) (rules : List Rule) (anc : List Elem) (e : Elem) : Bool :=
  match applyRules anc e rules with
  | .ok e' => good (e' :: anc.reverse)
  | .error _ => false

/-- Elements of a kind are good whatever their text is; the rules are those for this kind. -/
def leafReady (good : List Elem → Bool) (rules : List Rule) (anc : List Elem) (n : EName) (attrs : List (Text × Value)) : Bool :=
  decide (([] : Text) ∉ rules.flatMap (mentioned n)) &&
  (classes rules n).all fun x => readyWith good rules anc ⟨n, attrs, [x]⟩

/-- Whether an element is good does not depend on its text. -/
def Textless (good : List Elem → Bool) : Prop := ∀ e d up, good (withData d e :: up) = good (e :: up)

theorem ready_data : Textless attrsReady := by
  intro e d up
  have hl : ∀ n, lookupAttr n (withData d e :: up) = lookupAttr n (e :: up) := fun n => rfl
  have h1 : ∀ n, attrInt n (withData d e :: up) = attrInt n (e :: up) := fun n => rfl
  have h2 : ∀ n, attrText? n (withData d e :: up) = attrText? n (e :: up) := fun n => rfl
  have h3 : ∀ n, attrTruthy n (withData d e :: up) = attrTruthy n (e :: up) := fun n => rfl
  have h5 : ∀ n, hasAttr n (withData d e :: up) = hasAttr n (e :: up) := fun n => rfl
  have h6 : boxReady (withData d e :: up) = boxReady (e :: up) := rfl
  have h7 : flipReady (withData d e :: up) = flipReady (e :: up) := rfl
  have hn : (withData d e).name = e.name := rfl
  unfold attrsReady kindReady
  simp only [hl, h1, h2, h3, h5, h6, h7, hn]
  rfl

theorem leaf_is {good : List Elem → Bool} (hg : Textless good) (rules : List Rule) (anc : List Elem) (n : EName) (attrs : List (Text × Value)) (x : Text)
    (h : leafReady good (rules.filter (concerns n)) anc n attrs = true) (hd : dataReady ⟨n, attrs, [x]⟩) :
    TreeIs good rules anc (.node ⟨n, attrs, [x]⟩ []) := by
  have key : ∃ e', applyRules anc ⟨n, attrs, [x]⟩ (rules.filter (concerns n)) = .ok e' ∧
      good (e' :: anc.reverse) = true := by
    unfold leafReady at h
    rw [Bool.and_eq_true, List.all_eq_true, decide_eq_true_eq] at h
    obtain ⟨hz, h⟩ := h
    by_cases hx : x ∈ classes (rules.filter (concerns n)) n
    · have := h x hx
      unfold readyWith at this
      cases hr : applyRules anc ⟨n, attrs, [x]⟩ (rules.filter (concerns n)) with
      | error x => rw [hr] at this; simp at this
      | ok e' => rw [hr] at this; exact ⟨e', rfl, this⟩
    · have := h [] List.mem_cons_self
      unfold readyWith at this
      cases hr : applyRules anc ⟨n, attrs, [[]]⟩ (rules.filter (concerns n)) with
      | error x => rw [hr] at this; simp at this
      | ok e' =>
        rw [hr] at this
        have hh := rules_data (rules.filter (concerns n)) anc ⟨n, attrs, [[]]⟩ [x] (by
          intro r hr s hs he t ht
          have hm : t ∈ (rules.filter (concerns n)).flatMap (mentioned n) := by
            rw [List.mem_flatMap]
            refine ⟨r, hr, ?_⟩
            unfold mentioned
            rw [List.mem_filterMap]
            exact ⟨s, hs, by rw [if_pos he, ht]⟩
          simp only [List.mem_singleton]
          constructor
          · rintro rfl; exact absurd (List.mem_cons_of_mem _ hm) hx
          · rintro rfl; exact absurd hm hz)
        rw [hr] at hh
        refine ⟨withData [x] e', hh, ?_⟩
        rw [hg]; exact this
  obtain ⟨e', h1, h2⟩ := key
  rw [rules_filter _ _ _ n rfl] at h1
  obtain ⟨a, b⟩ := rules_keep h1
  refine node_is good rules anc _ e' [] h1 h2 ?_ (by simp)
  unfold dataReady at hd ⊢
  rw [a, b]
  exact hd

/-! ### Checking a whole style -/

/-- An element without a text that matters is ready, and what comes below it. -/
def innerReady (good : List Elem → Bool) (rules : List Rule) (anc : List Elem) (e : Elem) (f : List Elem → Bool) : Bool :=
  match applyRules anc e (rules.filter (concerns e.name)) with
  | .ok e' => good (e' :: anc.reverse) && f (anc ++ [e'])
  | .error _ => false

theorem inner_is {good : List Elem → Bool} (rules : List Rule) (anc : List Elem) (e : Elem) (f : List Elem → Bool) (kids : List Tree)
    (h : innerReady good rules anc e f = true) (hd : dataReady e)
    (hk : ∀ anc', f anc' = true → ∀ k ∈ kids, TreeIs good rules anc' k) : TreeIs good rules anc (.node e kids) := by
  unfold innerReady at h
  cases hr : applyRules anc e (rules.filter (concerns e.name)) with
  | error x => rw [hr] at h; simp at h
  | ok e' =>
    rw [hr] at h
    simp only [Bool.and_eq_true] at h
    rw [rules_filter _ _ _ _ rfl] at hr
    obtain ⟨a, b⟩ := rules_keep hr
    refine node_is good rules anc e e' kids hr h.1 ?_ (hk _ h.2)
    unfold dataReady at hd ⊢
    rw [a, b]
    exact hd

/-- `leafReady` with the rules that concern the kind. -/
def kindLeaf (good : List Elem → Bool) (rules : List Rule) (n : EName) (attrs : List (Text × Value)) (anc : List Elem) : Bool :=
  leafReady good (rules.filter (concerns n)) anc n attrs

def matchReady (good : List Elem → Bool) (rules : List Rule) (a : List Elem) : Bool :=
  kindLeaf good rules .action (playerAttr YOU) a && kindLeaf good rules .action (playerAttr HIM) a &&
  kindLeaf good rules .length [] a && kindLeaf good rules .crawford [] a &&
  kindLeaf good rules .score (playerAttr YOU) a && kindLeaf good rules .score (playerAttr HIM) a

def fieldReady (good : List Elem → Bool) (rules : List Rule) (a : List Elem) : Bool :=
  kindLeaf good rules .die [(t!"id", .str t!"right")] a && kindLeaf good rules .die [(t!"id", .str t!"left")] a &&
  kindLeaf good rules .cube [] a && kindLeaf good rules .resign [] a

def pileReady (good : List Elem → Bool) (rules : List Rule) (a : List Elem) : Bool :=
  kindLeaf good rules .chequer (playerAttr YOU) a && kindLeaf good rules .chequer (playerAttr HIM) a

def positionReady (good : List Elem → Bool) (rules : List Rule) (a : List Elem) : Bool :=
  innerReady good rules a ⟨.topFrame, [], []⟩ (fun _ => true) &&
  innerReady good rules a ⟨.bottomFrame, [], []⟩ (fun _ => true) &&
  innerReady good rules a ⟨.cubeholder, [], []⟩ (kindLeaf good rules .cube []) &&
  innerReady good rules a ⟨.field, playerAttr YOU, []⟩ (fieldReady good rules) &&
  innerReady good rules a ⟨.field, playerAttr HIM, []⟩ (fieldReady good rules) &&
  innerReady good rules a ⟨.home, playerAttr YOU, []⟩
    (fun h => kindLeaf good rules .chequer (playerAttr YOU) h && kindLeaf good rules .cube [] h) &&
  innerReady good rules a ⟨.home, playerAttr HIM, []⟩
    (fun h => kindLeaf good rules .chequer (playerAttr HIM) h && kindLeaf good rules .cube [] h) &&
  innerReady good rules a ⟨.bar, playerAttr YOU, []⟩ (kindLeaf good rules .chequer (playerAttr YOU)) &&
  innerReady good rules a ⟨.bar, playerAttr HIM, []⟩ (kindLeaf good rules .chequer (playerAttr HIM)) &&
  (List.range 24).all fun i => innerReady good rules a (newPoint (i + 1)).elem (pileReady good rules)

/-- Every part of every picture is good with this style. -/
def themeAll (good : List Elem → Bool) (rules : List Rule) : Bool :=
  innerReady good rules [] ⟨.board, [], []⟩ fun a =>
    innerReady good rules a ⟨.match, [], []⟩ (matchReady good rules) &&
    innerReady good rules a ⟨.position, [], []⟩ (positionReady good rules)

/-- Every part of every picture can be drawn with this style. -/
def themeReady (rules : List Rule) : Bool := themeAll attrsReady rules

theorem cubeLeaf_is {good : List Elem → Bool} (hg : Textless good) (rules : List Rule) (a : List Elem) (h : kindLeaf good rules .cube [] a = true) (n : Nat) :
    TreeIs good rules a (cubeLeaf n) :=
  leaf_is hg rules a .cube [] _ h ⟨n, by rw [pyStr_nat]⟩

theorem addedC_is {good : List Elem → Bool} (hg : Textless good) (rules : List Rule) (a : List Elem) (p n : Int) (h : kindLeaf good rules .chequer (playerAttr p) a = true) :
    ∀ k ∈ addedC p n, TreeIs good rules a k := by
  intro k hk
  unfold addedC at hk
  split at hk
  · simp at hk
  · rw [List.mem_singleton] at hk
    subst hk
    exact leaf_is hg rules a .chequer _ _ h ⟨n, rfl⟩

/-- The picture of a board with such a style. -/
theorem theme_is {good : List Elem → Bool} (hg : Textless good) (rules : List Rule) (h : themeAll good rules = true) (b : Board) (hs : Sensible b) (hw : Drawable b)
    (hd : DiceOk b) : TreeIs good rules [] (fullTree b).board := by
  unfold ETree.board
  refine inner_is rules [] _ _ _ h trivial fun a ha => ?_
  rw [Bool.and_eq_true] at ha
  obtain ⟨hm, hp⟩ := ha
  simp only [List.mem_cons, List.not_mem_nil, or_false, forall_eq_or_imp, forall_eq]
  constructor
  · refine inner_is rules a _ _ _ hm trivial fun m hm => ?_
    unfold matchReady at hm
    simp only [Bool.and_eq_true] at hm
    obtain ⟨⟨⟨⟨⟨m1, m2⟩, m3⟩, m4⟩, m5⟩, m6⟩ := hm
    simp only [List.mem_cons, List.not_mem_nil, or_false, forall_eq_or_imp, forall_eq]
    have hact : ∀ p s, p = YOU ∨ p = HIM → TreeIs good rules m (actionTree p s) := by
      intro p s hp
      rcases hp with rfl | rfl
      · exact leaf_is hg rules m .action (playerAttr YOU) s m1 (by simp [dataReady])
      · exact leaf_is hg rules m .action (playerAttr HIM) s m2 (by simp [dataReady])
    have hlen : (fullTree b).length = .node ⟨.length, [], [pyStr b.matchLength]⟩ [] := by
      unfold fullTree withField cubeTree; repeat' split
      all_goals rfl
    have hcr : (fullTree b).crawford = (baseTree b).crawford := by
      unfold fullTree withField cubeTree; repeat' split
      all_goals rfl
    have hsc : (fullTree b).score = (.node ⟨.score, playerAttr YOU, [pyStr b.score.1]⟩ [],
        .node ⟨.score, playerAttr HIM, [pyStr b.score.2]⟩ []) := by
      unfold fullTree withField cubeTree; repeat' split
      all_goals rfl
    rw [hlen, hcr, hsc]
    have hwho : (actionOf b).1 = YOU ∨ (actionOf b).1 = HIM := by
      have h1 : b.onAction = YOU ∨ b.onAction = HIM := hs.turns.1
      have h2 : other b.onAction = YOU ∨ other b.onAction = HIM := by
        rcases h1 with h | h <;> rw [h] <;> simp [other, YOU, HIM]
      unfold actionOf
      repeat' split
      all_goals first | exact h1 | exact h2 | exact .inl rfl
    exact ⟨hact _ _ hwho, leaf_is hg rules m .length [] _ m3 (by simp [dataReady]),
      leaf_is hg rules m .crawford [] _ m4 (by simp [dataReady]),
      leaf_is hg rules m .score _ _ m5 (by simp [dataReady]), leaf_is hg rules m .score _ _ m6 (by simp [dataReady])⟩
  · refine inner_is rules a _ _ _ hp trivial fun q hq => ?_
    unfold positionReady at hq
    simp only [Bool.and_eq_true] at hq
    obtain ⟨⟨⟨⟨⟨⟨⟨⟨⟨q1, q2⟩, q3⟩, q4⟩, q5⟩, q6⟩, q7⟩, q8⟩, q9⟩, q10⟩ := hq
    have empty : ∀ e f, innerReady good rules q e f = true → dataReady e → TreeIs good rules q (.node e []) :=
      fun e f h1 h2 => inner_is rules q e f [] h1 h2 fun _ _ k hk => absurd hk (by simp)
    have hfk : ∀ x, fieldReady good rules x = true → ∀ k ∈ (fieldKids b).2, TreeIs good rules x k := by
      intro x hx
      unfold fieldReady at hx
      simp only [Bool.and_eq_true] at hx
      obtain ⟨⟨⟨x1, x2⟩, x3⟩, x4⟩ := hx
      unfold fieldKids
      by_cases hr : b.rolled = (0, 0)
      · rw [if_pos hr]
        by_cases h1 : (!b.doubled && decide (b.onInnerAction ≠ b.onAction)) = true
        · rw [if_pos h1]
          intro k hk
          rw [List.mem_singleton] at hk
          subst hk
          refine leaf_is hg rules x .resign [] _ x4 ?_
          simp only [Bool.and_eq_true, Bool.not_eq_true', decide_eq_true_eq] at h1
          have : 1 ≤ b.resignOffer ∧ b.resignOffer ≤ 3 := by
            rcases hw with h | h | h | h
            · exact absurd hr h
            · exact absurd h h1.2
            · rw [h1.1] at h; simp at h
            · exact h
          exact ⟨b.resignOffer.toNat, by omega, by rw [show ((b.resignOffer.toNat : Nat) : Int) = b.resignOffer by omega]⟩
        · rw [if_neg h1]
          split
          · intro k hk
            rw [List.mem_singleton] at hk
            subst hk
            exact cubeLeaf_is hg rules x x3 _
          · intro k hk; simp at hk
      · rw [if_neg hr]
        have hdd : 1 ≤ b.rolled.1 ∧ b.rolled.1 ≤ 6 ∧ 1 ≤ b.rolled.2 ∧ b.rolled.2 ≤ 6 := by
          rcases hd with h | h
          · exact absurd h hr
          · exact h
        simp only [List.mem_cons, List.not_mem_nil, or_false, forall_eq_or_imp, forall_eq]
        exact ⟨leaf_is hg rules x .die _ _ x1 ⟨b.rolled.1.toNat, by omega, by omega,
            by rw [show ((b.rolled.1.toNat : Nat) : Int) = b.rolled.1 by omega]⟩,
          leaf_is hg rules x .die _ _ x2 ⟨b.rolled.2.toNat, by omega, by omega,
            by rw [show ((b.rolled.2.toNat : Nat) : Int) = b.rolled.2 by omega]⟩⟩
    have hfield : TreeIs good rules q (fullTree b).field.1 ∧ TreeIs good rules q (fullTree b).field.2 := by
      rw [full_field]
      split
      · exact ⟨inner_is rules q _ _ _ q4 trivial hfk, empty _ _ q5 trivial⟩
      · exact ⟨empty _ _ q4 trivial, inner_is rules q _ _ _ q5 trivial hfk⟩
    have hh : ∀ (p n : Int) (x : List Elem),
        (kindLeaf good rules .chequer (playerAttr p) x && kindLeaf good rules .cube [] x) = true →
        (∀ k ∈ addedC p n, TreeIs good rules x k) ∧ ∀ c, ∀ k ∈ addedC p n ++ [cubeLeaf c], TreeIs good rules x k := by
      intro p n x hx
      rw [Bool.and_eq_true] at hx
      refine ⟨addedC_is hg rules x p n hx.1, fun c k hk => ?_⟩
      rw [List.mem_append, List.mem_singleton] at hk
      rcases hk with hk | rfl
      · exact addedC_is hg rules x p n hx.1 k hk
      · exact cubeLeaf_is hg rules x hx.2 c
    have hhome : TreeIs good rules q (fullTree b).home.1 ∧ TreeIs good rules q (fullTree b).home.2 := by
      rw [full_home]
      have n1 := inner_is rules q _ _ _ q6 trivial fun x hx => (hh YOU (15 - b.position.1.sum) x hx).1
      have n2 := inner_is rules q _ _ _ q7 trivial fun x hx => (hh HIM (15 - b.position.2.sum) x hx).1
      have c1 := inner_is rules q _ _ _ q6 trivial fun x hx => (hh YOU (15 - b.position.1.sum) x hx).2 b.cube
      have c2 := inner_is rules q _ _ _ q7 trivial fun x hx => (hh HIM (15 - b.position.2.sum) x hx).2 b.cube
      unfold cubeTree
      repeat' split
      · exact ⟨n1, n2⟩
      · exact ⟨c1, n2⟩
      · exact ⟨n1, c2⟩
      · exact ⟨n1, n2⟩
    have hhold : TreeIs good rules q (fullTree b).cubeholder := by
      rw [full_cubeholder]
      have e0 := empty _ _ q3 trivial
      unfold cubeTree
      repeat' split
      · exact e0
      · exact e0
      · exact e0
      · refine inner_is rules q _ _ _ q3 trivial fun x hx k hk => ?_
        rw [List.mem_singleton] at hk
        subst hk
        exact cubeLeaf_is hg rules x hx _
    have hbar : TreeIs good rules q (fullTree b).bar.1 ∧ TreeIs good rules q (fullTree b).bar.2 := by
      rw [full_bar]
      exact ⟨inner_is rules q _ _ _ q8 trivial fun x hx => addedC_is hg rules x _ _ hx,
        inner_is rules q _ _ _ q9 trivial fun x hx => addedC_is hg rules x _ _ hx⟩
    have hpts : ∀ t ∈ (fullTree b).points, TreeIs good rules q t := by
      rw [full_points]
      intro t ht
      rw [List.mem_map] at ht
      obtain ⟨i, hi, rfl⟩ := ht
      rw [List.all_eq_true] at q10
      refine inner_is rules q _ _ _ (q10 i hi) trivial fun x hx k hk => ?_
      unfold pileReady at hx
      rw [Bool.and_eq_true] at hx
      unfold pointKids at hk
      split at hk <;> rw [List.mem_append] at hk <;> rcases hk with hk | hk
      · exact addedC_is hg rules x _ _ hx.1 k hk
      · exact addedC_is hg rules x _ _ hx.2 k hk
      · exact addedC_is hg rules x _ _ hx.2 k hk
      · exact addedC_is hg rules x _ _ hx.1 k hk
    intro k hk
    simp only [List.mem_append, List.mem_cons, List.not_mem_nil, or_false] at hk
    rcases hk with ((rfl | rfl | rfl | rfl | rfl | rfl) | hk) | (rfl | rfl | rfl)
    · exact empty _ _ q1 trivial
    · exact empty _ _ q2 trivial
    · exact hhold
    · exact hfield.1
    · exact hhome.1
    · exact hbar.2
    · exact hpts _ hk
    · exact hbar.1
    · exact hhome.2
    · exact hfield.2

theorem theme_ok (rules : List Rule) (h : themeReady rules = true) (b : Board) (hs : Sensible b) (hw : Drawable b)
    (hd : DiceOk b) : TreeOk rules [] (fullTree b).board := by
  obtain ⟨t', h1, h2⟩ := theme_is ready_data rules h b hs hw hd
  exact ⟨t', h1, fun scale => each_drawn scale _ t' h2⟩

/-! ### Something is drawn -/

/-- The element itself is seen: it has a background, or is a plain element with an image. -/
def seen (up : List Elem) : Bool :=
  match up with
  | [] => false
  | e :: _ => hasAttr t!"background" up || (decide (e.name = .position) && (attrText? t!"image" up).isSome)

/-- The board or the position is seen. -/
def themeSeen (rules : List Rule) : Bool :=
  match applyRules [] ⟨.board, [], []⟩ rules with
  | .error _ => false
  | .ok e => seen [e] || (match applyRules [e] ⟨.position, [], []⟩ rules with
    | .error _ => false
    | .ok p => seen [p, e])

theorem seen_ops (scale : Int → Int) (up : List Elem) (h : seen up = true) (ops : List Op)
    (ho : drawElement scale up = .ok ops) : ops ≠ [] := by
  unfold drawElement at ho
  simp only [bind, Except.bind, pure, Except.pure] at ho
  cases ha : backOps scale up with
  | error x => rw [ha] at ho; simp at ho
  | ok a =>
    rw [ha] at ho
    cases hb : ownOps scale up with
    | error x => rw [hb] at ho; simp at ho
    | ok b =>
      rw [hb] at ho
      simp only [Except.ok.injEq] at ho
      subst ho
      unfold seen at h
      cases up with
      | nil => simp at h
      | cons e up =>
        rw [Bool.or_eq_true] at h
        rcases h with h | h
        · unfold backOps at ha
          rw [if_pos h] at ha
          unfold bgDraw at ha
          cases hc : attrText? t!"background" (e :: up) with
          | none => rw [hc] at ha; simp at ha
          | some c =>
            rw [hc] at ha
            simp only [bind, Except.bind, pure, Except.pure] at ha
            cases hx : boxOf scale (e :: up) with
            | error x => rw [hx] at ha; simp at ha
            | ok x =>
              rw [hx] at ha
              simp only [Except.ok.injEq] at ha
              subst ha
              simp
        · rw [Bool.and_eq_true, decide_eq_true_eq] at h
          obtain ⟨hn, hi⟩ := h
          obtain ⟨i, hi⟩ := Option.isSome_iff_exists.1 hi
          have hh : hasAttr t!"image" (e :: up) = true := by
            unfold attrText? at hi
            unfold hasAttr
            cases hl : lookupAttr t!"image" (e :: up) with
            | error x => rw [hl] at hi; simp at hi
            | ok v => rfl
          unfold ownOps at hb
          rw [hh, Bool.true_or, if_pos rfl] at hb
          unfold drawElem at hb
          dsimp only at hb
          rw [hn] at hb
          dsimp only at hb
          unfold drawBase at hb
          simp only [bind, Except.bind, hi] at hb
          cases hx : boxOf scale (e :: up) with
          | error x => rw [hx] at hb; simp at hb
          | ok x =>
            rw [hx] at hb
            unfold paste at hb
            simp only [bind, Except.bind, pure, Except.pure] at hb
            cases hf : attrFlag t!"flip" (e :: up) with
            | error x => rw [hf] at hb; simp at hb
            | ok f =>
              rw [hf] at hb
              simp only [Except.ok.injEq] at hb
              subst hb
              simp

theorem styled_inv {rules : List Rule} {anc : List Elem} {e : Elem} {kids : List Tree} {t : Tree}
    (h : (Tree.node e kids).styled rules anc = .ok t) :
    ∃ e' ks, applyRules anc e rules = .ok e' ∧ styledAll rules (anc ++ [e']) kids = .ok ks ∧ t = .node e' ks := by
  simp only [Tree.styled] at h
  cases h1 : applyRules anc e rules with
  | error x => rw [h1] at h; simp at h
  | ok e' =>
    rw [h1] at h
    dsimp only at h
    cases h2 : styledAll rules (anc ++ [e']) kids with
    | error x => rw [h2] at h; simp at h
    | ok ks => rw [h2] at h; simp only [Except.ok.injEq] at h; exact ⟨e', ks, rfl, h2, h.symm⟩

theorem styledAll_inv {rules : List Rule} {anc : List Elem} {t : Tree} {ts : List Tree} {l : List Tree}
    (h : styledAll rules anc (t :: ts) = .ok l) :
    ∃ t' ts', t.styled rules anc = .ok t' ∧ styledAll rules anc ts = .ok ts' ∧ l = t' :: ts' := by
  simp only [styledAll] at h
  cases h1 : t.styled rules anc with
  | error x => rw [h1] at h; simp at h
  | ok t' =>
    rw [h1] at h
    dsimp only at h
    cases h2 : styledAll rules anc ts with
    | error x => rw [h2] at h; simp at h
    | ok ks => rw [h2] at h; simp only [Except.ok.injEq] at h; exact ⟨t', ks, rfl, rfl, h.symm⟩

theorem drawn_inv {scale : Int → Int} {anc : List Elem} {e : Elem} {kids : List Tree} {ops : List Op}
    (h : (Tree.node e kids).drawn scale anc = .ok ops) :
    ∃ a b, drawElement scale (e :: anc) = .ok a ∧ drawnAll scale (e :: anc) kids = .ok b ∧ ops = a ++ b := by
  simp only [Tree.drawn] at h
  cases h1 : drawElement scale (e :: anc) with
  | error x => rw [h1] at h; simp at h
  | ok a =>
    rw [h1] at h
    dsimp only at h
    cases h2 : drawnAll scale (e :: anc) kids with
    | error x => rw [h2] at h; simp at h
    | ok b => rw [h2] at h; simp only [Except.ok.injEq] at h; exact ⟨a, b, rfl, rfl, h.symm⟩

theorem drawnAll_inv {scale : Int → Int} {anc : List Elem} {t : Tree} {ts : List Tree} {ops : List Op}
    (h : drawnAll scale anc (t :: ts) = .ok ops) :
    ∃ a b, t.drawn scale anc = .ok a ∧ drawnAll scale anc ts = .ok b ∧ ops = a ++ b := by
  simp only [drawnAll] at h
  cases h1 : t.drawn scale anc with
  | error x => rw [h1] at h; simp at h
  | ok a =>
    rw [h1] at h
    dsimp only at h
    cases h2 : drawnAll scale anc ts with
    | error x => rw [h2] at h; simp at h
    | ok b => rw [h2] at h; simp only [Except.ok.injEq] at h; exact ⟨a, b, rfl, rfl, h.symm⟩

/-- Every board can be drawn with such a style, at any magnification. -/
theorem theme_draws (rules : List Rule) (h : themeReady rules = true) (hsee : themeSeen rules = true) (b : Board)
    (hs : Sensible b) (hw : Drawable b) (hd : DiceOk b) (scale : Int → Int) :
    ∃ ops, drawBoard rules scale b = .ok ops := by
  obtain ⟨t', h1, h2⟩ := theme_ok rules h b hs hw hd
  obtain ⟨ops, ho⟩ := h2 scale
  have hset : ETree.create.set b = .ok (fullTree b) := by
    exact (set_full b hs).1 hw
  refine ⟨ops, ?_⟩
  unfold drawBoard
  rw [hset]
  dsimp only
  rw [h1]
  dsimp only
  rw [show ([] : List Elem) = [].reverse from rfl, ho]
  unfold resultOf
  apply if_neg
  intro hnil
  subst hnil
  unfold themeSeen at hsee
  unfold ETree.board at h1
  obtain ⟨e, ks, hb, hks, rfl⟩ := styled_inv h1
  obtain ⟨m, l, -, hl, rfl⟩ := styledAll_inv hks
  obtain ⟨p, l', hp, -, rfl⟩ := styledAll_inv hl
  obtain ⟨q, ks, hq, -, rfl⟩ := styled_inv hp
  obtain ⟨o1, o2, d1, d2, e1⟩ := drawn_inv ho
  obtain ⟨o3, o4, -, d4, e2⟩ := drawnAll_inv d2
  obtain ⟨o5, o6, d5, -, e3⟩ := drawnAll_inv d4
  obtain ⟨o7, o8, d7, -, e4⟩ := drawn_inv d5
  subst e4 e3 e2
  simp only [List.nil_eq, List.append_eq_nil_iff] at e1
  rw [List.nil_append] at hq
  simp only [hb, hq, Bool.or_eq_true] at hsee
  rcases hsee with hz | hz
  · exact seen_ops scale _ hz _ d1 e1.1
  · exact seen_ops scale _ hz _ d7 e1.2.2.1.1

end Bglib
