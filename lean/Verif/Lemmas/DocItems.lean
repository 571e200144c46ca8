import Verif.Lemmas.DocTables
/-
Lists of items.
-/
namespace Bglib.Doc
open Spec.Document

variable {w w' : Wiki} {env : Env}

/-- The elements around an item. -/
def isListy (k : Klass) : Prop := k = .itemize ∨ (∃ d, k = .list (some d)) ∨ k = .div ∨ k = .root

theorem listy_not {k : Klass} (h : isListy k) (ks : List Klass) (hk : ([Klass.itemize, .list none, .div, .root].all fun k => !(ks.any fun c => k.isA c)) = true) :
    (ks.any fun c => k.isA c) = false := by
  simp only [List.all_cons, List.all_nil, Bool.and_true, Bool.and_eq_true, Bool.not_eq_true'] at hk
  rcases h with rfl | ⟨d, rfl⟩ | rfl | rfl
  · exact hk.1
  · exact hk.2.1
  · exact hk.2.2.1
  · exact hk.2.2.2

theorem listy_opened {fs : List Frame} (h : ∀ f ∈ fs, isListy f.klass) (ks : List Klass)
    (hk : ([Klass.itemize, .list none, .div, .root].all fun k => !(ks.any fun c => k.isA c)) = true) : opened ks fs = false := by
  simp only [opened, List.any_eq_false]
  intro f hf
  rw [listy_not (h f hf) ks hk]
  simp

theorem listy_noStyle {k : Klass} (h : isListy k) : noStyle k = true := by
  rcases h with rfl | ⟨d, rfl⟩ | rfl | rfl <;> rfl

theorem list_isA (d : Design) : (Klass.list (some d)).isA (.list none) = true := rfl

/-- The item that is being written. -/
def freshItem : Frame := ⟨.itemize, some (.item true), [], []⟩

theorem freshItem_good : freshItem.good := ⟨by simp [freshItem], by simp [freshItem], Or.inr (Or.inl rfl)⟩

/-- An item is open in a list. -/
structure InList (i l : Frame) (d : Design) (fs : List Frame) (n : Nat) : Prop where
  item : i.klass = .itemize
  list : l.klass = .list (some d)
  tail : l.tail = []
  listy : ∀ f ∈ fs, isListy f.klass
  block : opened [.div] fs = true
  count : fs.countP (fun g => g.klass.isA (.list none)) = n

theorem InList.all {i l : Frame} {d : Design} {fs : List Frame} {n : Nat} (h : InList i l d fs n) : ∀ f ∈ i :: l :: fs, isListy f.klass := by
  intro f hf
  rcases List.mem_cons.1 hf with rfl | hf
  · rw [h.item]; exact Or.inl rfl
  · rcases List.mem_cons.1 hf with rfl | hf
    · rw [h.list]; exact Or.inr (Or.inl ⟨d, rfl⟩)
    · exact h.listy f hf

theorem open_item {i l : Frame} {d : Design} {fs : List Frame} {n : Nat} (h : InList i l d fs n) : Open i (l :: fs) := by
  refine ⟨by rw [h.item]; rfl, ?_⟩
  intro g hg
  exact listy_noStyle (h.all g hg)

theorem opened_div_listed {i l : Frame} {fs : List Frame} (h : opened [.div] fs = true) : opened [.div] (i :: l :: fs) = true := by
  rw [opened_cons, opened_cons, h, Bool.or_true, Bool.or_true]

/-- Further lines of an item. -/
theorem st_item_more {i l : Frame} {d : Design} {fs : List Frame} {n : Nat} (ls : List Line) (h : Stack w env (i :: l :: fs)) (hi : InList i l d fs n)
    (hl : ∀ x ∈ ls, Ordinary x) : Yields (w.lines env (ls.map write)) env (addLine i ls.flatten :: l :: fs) := by
  induction ls generalizing w i with
  | nil => exact yields_ok h
  | cons x ls ih =>
    rw [List.map_cons, lines_cons, List.flatten_cons, ← addLine_append]
    refine yields_bind (st_ordinary h (within_two (opened_div_listed hi.block)) rfl (listy_opened hi.all _ (by decide)) (open_item hi)
      (hl x (List.mem_cons_self ..))) ?_
    intro w1 h1
    exact ih h1 ⟨(addLine_klass i x).trans hi.item, hi.list, hi.tail, hi.listy, hi.block, hi.count⟩ fun y hy => hl y (List.mem_cons_of_mem _ hy)

/-! ### The line of an item -/

/-- What a line of an item begins with. -/
def itemHead (n : Nat) (m : Mark) : Text := List.replicate (n + 1) ' ' ++ m.write ++ [' ']

theorem item_toks (n : Nat) (m : Mark) {l : Line} (h : Fit l) :
    ∃ g, finditer linePatterns (itemHead n m ++ write l) = (.itemize, itemHead n m, g) :: lineToks l ∧ designOf g = markDesign m ∧
      (groupOf g t!"sign").isSome = m.isSign := by
  obtain ⟨g, e, h1, h2⟩ := item_first n m (write l)
  refine ⟨g, ?_, h1, h2⟩
  apply toks_finditer
  have ht := toks_line (start := false) (t := []) (xs := []) h (by simp) (by simp) quiet_nil calm_nil (toks_nil false)
  rw [List.append_nil, List.append_nil] at ht
  exact toks_cons (by simp [itemHead]) e rfl ht

theorem item_tame (n : Nat) (m : Mark) {l : Line} (h : Fit l) : Tame (itemHead n m ++ write l) := by
  refine tame_append (tame_append (tame_append ?_ (tame_mark m)) (tame_of _ (by decide))) (tame_write h)
  intro c hc
  rw [List.eq_of_mem_replicate hc]
  decide

theorem item_indent (n : Nat) (m : Mark) : ((itemHead n m).takeWhile (· = ' ')).length = n + 1 := by
  rw [itemHead, List.append_assoc, List.takeWhile_append_of_pos]
  · have : (m.write ++ [' ']).takeWhile (· = ' ') = [] := by
      have := mark_head m
      cases hw : m.write with
      | nil => rw [hw] at this; exact absurd rfl this
      | cons c u =>
        rw [hw] at this
        have hc : c ≠ ' ' := by simpa using this
        simp [hc]
    rw [this]
    simp
  · intro a ha; rw [List.eq_of_mem_replicate ha]; rfl

theorem itemize_item (w : Wiki) (n : Nat) (m : Mark) (g : List (Text × Text)) : w.item env (.itemize, itemHead n m, g) =
    w.itemize (itemHead n m) g := item_handle w env _ _ _ (by simp [itemHead, List.replicate_succ])

theorem item_start (n : Nat) (m : Mark) (t : Text) : ∃ u, itemHead n m ++ t = ' ' :: u := ⟨_, rfl⟩

/-- An item line, given how the list is found. -/
theorem st_item_line {fs gs : List Frame} {L : Frame} {d : Design} (n : Nat) (m : Mark) {l : Line} (h : Stack w env fs) (hw : Within fs)
    (hp : opened [.blockQuote, .definitionBody, .citation] (begun fs) = false) (hl : Fit l) (hL : L.klass = .list (some d)) (ht : L.tail = [])
    (hgs : ∀ f ∈ gs, isListy f.klass) (hd : d = .sign → m.isSign = true)
    (hk : ∀ w1 g, Stack w1 env (begun fs) → designOf g = markDesign m → ∃ nest, w1.nesting (.list none) = .ok nest ∧
      Yields ((times (fun w => w.leave [.list none]) (nest - (n + 1)) w1).bind fun w => w.toList (n + 1) nest g) env (L :: gs)) :
    Yields (w.line env (itemHead n m ++ write l)) env (addLine freshItem l :: L :: gs) := by
  have he := tame_ends (item_tame n m hl)
  obtain ⟨g, hg, h1, h2⟩ := item_toks n m hl
  obtain ⟨u, e⟩ := item_start n m (write l)
  rw [e] at he hg ⊢
  refine st_any h hw he ?_
  intro w1 k1
  rw [prep_closed hp] at k1
  rw [hg, items_cons, itemize_item]
  obtain ⟨nest, e1, hy⟩ := hk w1 g k1 h1
  have hO : Open freshItem (L :: gs) := by
    refine ⟨rfl, ?_⟩
    intro x hx
    rcases List.mem_cons.1 hx with rfl | hx
    · rfl
    · rcases List.mem_cons.1 hx with rfl | hx
      · rw [hL]; rfl
      · exact listy_noStyle (hgs x hx)
  refine yields_bind (fs := freshItem :: L :: gs) ?_ fun w2 k2 => st_line l k2 hO
  simp only [Wiki.itemize, e1, item_indent, bind]
  show Yields ((times (fun w => w.leave [.list none]) (nest - (n + 1)) w1).bind fun w => (w.toList (n + 1) nest g).bind fun w => w.enterItem g) env _
  obtain ⟨w2, e2, k2⟩ := hy
  cases e3 : times (fun w => w.leave [.list none]) (nest - (n + 1)) w1 with
  | error x => rw [e3] at e2; cases e2
  | ok w3 =>
    rw [e3] at e2
    have e2 : w3.toList (n + 1) nest g = .ok w2 := e2
    simp only [Except.bind, e2]
    have hc : w2.doc.currentKlass = some L.klass := by
      obtain ⟨⟨c, hc, hf, nn, hn, hkk, _⟩, _⟩ := k2.pos
      simp only [Editor.currentKlass, hc, Option.bind_some, hn, Option.map_some, hkk]
    have hs : (decide ((some d : Option Design) ≠ some .sign) || (groupOf g t!"sign").isSome) = true := by
      rw [h2]
      by_cases hdd : d = .sign
      · rw [hd hdd, Bool.or_true]
      · simp [hdd]
    simp only [Wiki.enterItem, hc, hL]
    rw [hs]
    have := st_enter (k := .itemize) (x := some (.item true)) k2 (by rw [hL]; rfl) (by simp) freshItem_good
    rw [under_of ht] at this
    exact this

/-! ### Towers of lists -/

/-- Items in lists, from the innermost. -/
def tower (ps : List (Frame × Frame)) (base : List Frame) : List Frame := ps.flatMap (fun x => [x.1, x.2]) ++ base

/-- Closing a list in the next item, and so on. -/
def push (x : Frame) : List (Frame × Frame) → Frame → Frame
  | [], f => shut x f
  | (i, l) :: ps, f => push (shut (shut x i) l) ps f

/-- The item after all lists in it have been closed. -/
def settle : List (Frame × Frame) → Frame → Frame
  | [], f => f
  | (i, l) :: ps, f => push (shut i l) ps f

theorem push_snoc (x : Frame) (ps : List (Frame × Frame)) (i l f : Frame) : push x (ps ++ [(i, l)]) f = shut (shut (push x ps i) l) f := by
  induction ps generalizing x with
  | nil => rfl
  | cons y ps ih => exact ih _

theorem settle_snoc (ps : List (Frame × Frame)) (i l f : Frame) : settle (ps ++ [(i, l)]) f = shut (shut (settle ps i) l) f := by
  cases ps with
  | nil => rfl
  | cons y ps => exact push_snoc _ ps i l f

/-- The classes in a tower. -/
def Pairs (ps : List (Frame × Frame)) : Prop := ∀ x ∈ ps, x.1.klass = .itemize ∧ ∃ d, x.2.klass = .list (some d)

theorem tower_cons (i l : Frame) (ps : List (Frame × Frame)) (base : List Frame) : tower ((i, l) :: ps) base = i :: l :: tower ps base := by
  simp [tower]

theorem tower_snoc (ps : List (Frame × Frame)) (i l : Frame) (base : List Frame) : tower (ps ++ [(i, l)]) base = tower ps (i :: l :: base) := by
  simp [tower]

theorem st_settle {i : Frame} {fs : List Frame} (ps : List (Frame × Frame)) (h : Stack w env (tower ps (i :: fs))) (hp : Pairs ps) :
    Yields (times (fun w => w.leave [.list none]) ps.length w) env (settle ps i :: fs) := by
  cases ps with
  | nil => exact yields_ok h
  | cons x ps =>
    obtain ⟨j, l⟩ := x
    rw [settle]
    induction ps generalizing w j l with
    | nil =>
      rw [tower_cons] at h
      obtain ⟨k1, d, k2⟩ := hp (j, l) (by simp)
      simp only [List.length_cons, List.length_nil, times, bind]
      refine yields_bind (st_leave [.list none] h (by decide)) ?_
      intro w1 h1
      have e := leaveZ_deep (ks := [.list none]) j [] l i fs (by rw [opened_cons, k1]; rfl) (by rw [k2]; rfl)
      simp only [List.cons_append, List.nil_append, collapse] at e
      have e0 : tower [] (i :: fs) = i :: fs := rfl
      rw [e0, e] at h1
      exact yields_ok h1
    | cons y ps ih =>
      obtain ⟨j', l'⟩ := y
      rw [tower_cons, tower_cons] at h
      obtain ⟨k1, d, k2⟩ := hp (j, l) (by simp)
      rw [List.length_cons, times]
      refine yields_bind (st_leave [.list none] h (by decide)) ?_
      intro w1 h1
      have e := leaveZ_deep (ks := [.list none]) j [] l j' (l' :: tower ps (i :: fs)) (by rw [opened_cons, k1]; rfl) (by rw [k2]; rfl)
      simp only [List.cons_append, List.nil_append, collapse] at e
      rw [e, ← tower_cons] at h1
      refine ih (shut (shut j l) j') l' h1 ?_
      intro x hx
      rcases List.mem_cons.1 hx with rfl | hx
      · exact hp (j', l') (by simp)
      · exact hp x (by simp [hx])

theorem tower_all {ps : List (Frame × Frame)} {base : List Frame} (hp : Pairs ps) (hb : ∀ f ∈ base, isListy f.klass) :
    ∀ f ∈ tower ps base, isListy f.klass := by
  intro f hf
  rcases List.mem_append.1 hf with hf | hf
  · obtain ⟨x, hx, hf⟩ := List.mem_flatMap.1 hf
    obtain ⟨k1, k2⟩ := hp x hx
    simp only [List.mem_cons, List.not_mem_nil, or_false] at hf
    rcases hf with rfl | rfl
    · exact Or.inl k1
    · exact Or.inr (Or.inl k2)
  · exact hb f hf

theorem tower_count {ps : List (Frame × Frame)} {base : List Frame} (hp : Pairs ps) :
    (tower ps base).countP (fun g => g.klass.isA (.list none)) = ps.length + base.countP (fun g => g.klass.isA (.list none)) := by
  induction ps with
  | nil => simp [tower]
  | cons x ps ih =>
    obtain ⟨i, l⟩ := x
    obtain ⟨k1, d, k2⟩ := hp (i, l) (by simp)
    have e1 : i.klass.isA (.list none) = false := by rw [k1]; rfl
    have e2 : l.klass.isA (.list none) = true := by rw [k2]; rfl
    rw [tower_cons, List.countP_cons, List.countP_cons, ih fun y hy => hp y (by simp [hy])]
    simp only [e1, e2, List.length_cons]
    simp
    omega

theorem tower_div {ps : List (Frame × Frame)} {base : List Frame} (h : opened [.div] base = true) : opened [.div] (tower ps base) = true := by
  rw [tower, opened_append, h, Bool.or_true]

theorem tower_within {ps : List (Frame × Frame)} {i l : Frame} {fs : List Frame} (h : opened [.div] fs = true) :
    Within (tower ps (i :: l :: fs)) ∧ begun (tower ps (i :: l :: fs)) = tower ps (i :: l :: fs) := by
  have h2 : begun (tower ps (i :: l :: fs)) = tower ps (i :: l :: fs) := by
    cases ps with
    | nil => rfl
    | cons x ps => rfl
  exact ⟨Or.inr ⟨tower_div (opened_div_listed h), h2⟩, h2⟩

theorem settle_klass (ps : List (Frame × Frame)) (f : Frame) : (settle ps f).klass = f.klass := by
  cases ps with
  | nil => rfl
  | cons x ps =>
    rw [settle]
    generalize shut x.1 x.2 = y
    induction ps generalizing y with
    | nil => rfl
    | cons x ps ih => exact ih _

/-- The next item of a list. -/
theorem st_item_next {ps : List (Frame × Frame)} {i L : Frame} {d : Design} {fs : List Frame} (n : Nat) (m : Mark) {l : Line}
    (h : Stack w env (tower ps (i :: L :: fs))) (hp : Pairs ps) (hi : InList i L d fs n) (hl : Fit l) (hd : d = .sign → m.isSign = true) :
    Yields (w.line env (itemHead n m ++ write l)) env (addLine freshItem l :: shut (settle ps i) L :: fs) := by
  obtain ⟨hw, hb⟩ := tower_within (ps := ps) (i := i) (l := L) hi.block
  refine st_item_line (d := d) n m h hw ?_ hl hi.list rfl hi.listy hd ?_
  · rw [hb]
    exact listy_opened (tower_all hp hi.all) _ (by decide)
  · intro w1 g h1 hg
    rw [hb] at h1
    have e : (tower ps (i :: L :: fs)).countP (fun g => g.klass.isA (.list none)) = ps.length + (n + 1) := by
      rw [tower_count hp, List.countP_cons, List.countP_cons, hi.count]
      have e1 : i.klass.isA (.list none) = false := by rw [hi.item]; rfl
      have e2 : L.klass.isA (.list none) = true := by rw [hi.list]; rfl
      simp [e1, e2]
    refine ⟨_, (at_nesting (.list none) h1.pos).trans (by rw [e]), ?_⟩
    rw [Nat.add_sub_cancel]
    refine yields_bind (st_settle ps h1 hp) ?_
    intro w2 h2
    rw [Wiki.toList, if_pos (by omega)]
    have := st_leave [.itemize] h2 (by decide)
    rw [leaveZ_self (by rw [settle_klass, hi.item]; rfl)] at this
    exact this

/-- The first item of a list below an item. -/
theorem st_item_below {i L : Frame} {d : Design} {fs : List Frame} (n : Nat) (m : Mark) {l : Line}
    (h : Stack w env (i :: L :: fs)) (hi : InList i L d fs n) (hl : Fit l) :
    Yields (w.line env (itemHead (n + 1) m ++ write l)) env (addLine freshItem l :: fresh (.list (some (markDesign m))) :: i.under :: L :: fs) := by
  refine st_item_line (d := markDesign m) (n + 1) m h (within_two (opened_div_listed hi.block)) (listy_opened hi.all _ (by decide)) hl rfl rfl
    ?_ ?_ ?_
  · intro f hf
    rcases List.mem_cons.1 hf with rfl | hf
    · exact Or.inl hi.item
    · exact hi.all f (List.mem_cons_of_mem _ hf)
  · intro hs
    cases m <;> simp_all [markDesign, Mark.isSign]
  · intro w1 g h1 hg
    rw [begun_long] at h1
    have e : (i :: L :: fs).countP (fun g => g.klass.isA (.list none)) = n + 1 := by
      rw [List.countP_cons, List.countP_cons, hi.count]
      have e1 : i.klass.isA (.list none) = false := by rw [hi.item]; rfl
      have e2 : L.klass.isA (.list none) = true := by rw [hi.list]; rfl
      simp [e1, e2]
    refine ⟨_, (at_nesting (.list none) h1.pos).trans (by rw [e]), ?_⟩
    have e0 : n + 1 - (n + 1 + 1) = 0 := by omega
    have e3 : n + 1 + 1 - (n + 1) - 1 = 0 := by omega
    rw [e0, times]
    simp only [Except.bind, Wiki.toList, e3, times, bind, hg]
    rw [if_neg (by omega)]
    exact st_enter h1 (by rw [hi.item]; rfl) (by simp) (fresh_good _ (by simp) (by simp))

/-- The first item of a block. -/
theorem st_item_first {p : List Tok} (m : Mark) {l : Line} (h : Stack w env [rootFrame p]) (hl : Fit l) :
    Yields (w.line env (itemHead 0 m ++ write l)) env (addLine freshItem l :: fresh (.list (some (markDesign m))) :: [fresh .div, rootFrame p]) := by
  refine st_item_line (d := markDesign m) 0 m h (within_root p) (by rw [begun_root]; rfl) hl rfl rfl ?_ ?_ ?_
  · intro f hf
    simp only [List.mem_cons, List.not_mem_nil, or_false] at hf
    rcases hf with rfl | rfl
    · exact Or.inr (Or.inr (Or.inl rfl))
    · exact Or.inr (Or.inr (Or.inr rfl))
  · intro hs
    cases m <;> simp_all [markDesign, Mark.isSign]
  · intro w1 g h1 hg
    rw [begun_root] at h1
    refine ⟨_, at_nesting (.list none) h1.pos, ?_⟩
    have e : [fresh .div, rootFrame p].countP (fun g => g.klass.isA (.list none)) = 0 := rfl
    rw [e, Nat.zero_sub, times]
    simp only [Except.bind, Wiki.toList, times, bind, hg]
    rw [if_neg (by omega)]
    have := st_enter (k := .list (some (markDesign m))) (x := none) h1 rfl (by simp) (fresh_good _ (by simp) (by simp))
    rw [fresh_under] at this
    exact this

/-! ### Whole lists -/

theorem head_write (n : Nat) (m : Mark) (l : Line) : List.replicate (n + 1) ' ' ++ m.write ++ ' ' :: write l = itemHead n m ++ write l := by
  simp [itemHead]

theorem yields_lines {fs gs : List Frame} {xs ys : List Text} (h : Yields (w.lines env xs) env fs)
    (hk : ∀ w', Stack w' env fs → Yields (w'.lines env ys) env gs) : Yields (w.lines env (xs ++ ys)) env gs := by
  rw [lines_append]
  exact yields_bind h hk

theorem item_shut {i L : Frame} (h : i.klass = .itemize) : (shut i L).pre = L.pre ++ element t!"li" i.inner := by
  simp only [shut]
  rw [toks_of h]
  simp [openToks, closeToks, Node.opens, Node.closes, element, Klass.tag]

theorem list_toks (f : Frame) (m : Mark) (h : f.klass = .list (some (markDesign m))) : f.toks = element m.tag f.inner := by
  rw [toks_of h]
  cases m <;> simp [openToks, closeToks, Node.opens, Node.closes, element, markDesign, Design.tag, Mark.tag]

/-- What is open after an item with all that belongs to it, and after the items behind it. -/
def Listed (it : Items) : Prop :=
  ∀ m l ls below next, it = .item m l ls below next → ∀ (w : Wiki) (env : Env) (L : Frame) (d : Design) (fs : List Frame) (n : Nat),
    Stack w env (addLine freshItem l :: L :: fs) → InList (addLine freshItem l) L d fs n → it.Fit (decide (d = .sign)) →
    ∃ ps i L', Pairs ps ∧ InList i L' d fs n ∧ (shut (settle ps i) L').pre = L.pre ++ it.html ∧
      Yields (w.lines env (ls.map write ++ (below.write (n + 2) ++ next.write (n + 1)))) env (tower ps (i :: L' :: fs))

theorem below_listed {below : Items} (ih : Listed below) {I L : Frame} {d : Design} {fs : List Frame} {n : Nat} (h : InList I L d fs n)
    (hf : below.Fit below.signed) (hw : Stack w env (I :: L :: fs)) :
    ∃ ps i, Pairs ps ∧ InList i L d fs n ∧ (settle ps i).inner = I.inner ++ below.list below.html ∧
      Yields (w.lines env (below.write (n + 2))) env (tower ps (i :: L :: fs)) := by
  cases below with
  | none => exact ⟨[], I, (fun x hx => absurd hx List.not_mem_nil), h, by simp [settle, Items.list], yields_ok hw⟩
  | item m l ls b nx =>
    obtain ⟨w1, e1, h1⟩ := st_item_below n m hw h (hf.2.1)
    have hi : InList (addLine freshItem l) (fresh (.list (some (markDesign m)))) (markDesign m) (I.under :: L :: fs) (n + 1) := by
      refine ⟨addLine_klass _ _, rfl, rfl, ?_, opened_div_listed h.block, ?_⟩
      · intro f hf
        rcases List.mem_cons.1 hf with rfl | hf
        · exact Or.inl h.item
        · exact h.all f (List.mem_cons_of_mem _ hf)
      · have e1 : I.under.klass.isA (.list none) = false := by show I.klass.isA _ = false; rw [h.item]; rfl
        have e2 : L.klass.isA (.list none) = true := by rw [h.list]; rfl
        rw [List.countP_cons, List.countP_cons, h.count]
        simp [e1, e2]
    have hs : decide (markDesign m = .sign) = m.isSign := by cases m <;> rfl
    obtain ⟨ps, i, L', hp, hi', hpre, hy⟩ := ih m l ls b nx rfl w1 env _ _ _ _ h1 hi (by rw [hs]; exact hf)
    refine ⟨ps ++ [(i, L')], I.under, ?_, ⟨h.item, h.list, h.tail, h.listy, h.block, h.count⟩, ?_, ?_⟩
    · intro x hx
      rcases List.mem_append.1 hx with hx | hx
      · exact hp x hx
      · rw [List.mem_singleton] at hx
        subst hx
        exact ⟨hi'.item, _, hi'.list⟩
    · have e : (shut (settle ps i) L').inner = (Items.item m l ls b nx).html := by
        have : (shut (settle ps i) L').inner = (shut (settle ps i) L').pre := by simp [Frame.inner, shut, words]
        rw [this, hpre]
        rfl
      rw [settle_snoc, shut_inner, list_toks (shut (settle ps i) _) m hi'.list, e]
      rfl
    · rw [tower_snoc]
      rw [Items.write, List.append_assoc, List.cons_append, lines_cons, head_write, e1]
      exact hy

theorem listed (it : Items) : Listed it := by
  induction it with
  | none => intro m l ls below next e; cases e
  | item m l ls below next ihb ihn =>
    intro m' l' ls' below' next' e w env L d fs n h hi hf
    cases e
    obtain ⟨hf1, hf2, hf3, hf4, hf5⟩ := hf
    obtain ⟨w1, e1, h1⟩ := st_item_more ls h hi hf3
    have hi1 : InList (addLine (addLine freshItem l) ls.flatten) L d fs n :=
      ⟨(addLine_klass _ _).trans hi.item, hi.list, hi.tail, hi.listy, hi.block, hi.count⟩
    obtain ⟨ps, i, hp, hi2, he, w2, e2, h2⟩ := below_listed ihb hi1 hf4 h1
    have he' : (settle ps i).inner = shown (l :: ls) ++ below.list below.html := by
      rw [he, addLine_append, addLine_inner]
      rfl
    have hpre : (shut (settle ps i) L).pre = L.pre ++ element t!"li" (shown (l :: ls) ++ below.list below.html) := by
      rw [item_shut ((settle_klass _ _).trans hi2.item), he']
    rw [Items.html]
    cases next with
    | none =>
      refine ⟨ps, i, L, hp, hi2, by rw [hpre]; simp [Items.html], ?_⟩
      rw [lines_append, e1]
      show Yields (w1.lines env (below.write (n + 2) ++ [])) env _
      rw [List.append_nil, e2]
      exact yields_ok h2
    | item m2 l2 ls2 b2 n2 =>
      have hs : d = .sign → m2.isSign = true := by
        intro hd
        exact hf5.1 (by simp [hd])
      obtain ⟨w3, e3, h3⟩ := st_item_next n m2 h2 hp hi2 hf5.2.1 hs
      have hi3 : InList (addLine freshItem l2) (shut (settle ps i) L) d fs n :=
        ⟨addLine_klass _ _, hi2.list, rfl, hi2.listy, hi2.block, hi2.count⟩
      obtain ⟨ps', i', L', hp', hi', hpre', hy⟩ := ihn m2 l2 ls2 b2 n2 rfl w3 env _ _ _ _ h3 hi3 hf5
      refine ⟨ps', i', L', hp', hi', ?_, ?_⟩
      · rw [hpre', hpre, List.append_assoc]
      · rw [lines_append, e1]
        show Yields (w1.lines env (below.write (n + 2) ++ _)) env _
        rw [lines_append, e2]
        show Yields (w2.lines env _) env _
        rw [Items.write, List.append_assoc, List.cons_append, lines_cons, head_write, e3]
        exact hy

/-- Closing all lists and the block. -/
theorem collapse_tower (ps : List (Frame × Frame)) (i L d : Frame) : ∃ f gs, tower ps [i, L, d] = f :: gs ++ [d] ∧
    collapse f (gs ++ [d]) = shut (shut (settle ps i) L) d := by
  have key : ∀ (qs : List (Frame × Frame)) (x i : Frame), collapse x (tower qs [i, L, d]) = shut (shut (push x qs i) L) d := by
    intro qs
    induction qs with
    | nil => intro x i; rfl
    | cons q qs ih =>
      intro x i
      rw [tower_cons]
      exact ih _ i
  cases ps with
  | nil => exact ⟨i, [L], rfl, rfl⟩
  | cons x ps =>
    refine ⟨x.1, x.2 :: ps.flatMap (fun x => [x.1, x.2]) ++ [i, L], by simp [tower], ?_⟩
    have := key ps (shut x.1 x.2) i
    rw [tower] at this
    simpa [settle, collapse] using this

theorem st_items_block {p : List Tok} (it : Items) (h : Stack w env [rootFrame p]) (hb : (Block.items it).Fit) :
    Yields (w.lines env ((Block.items it).write ++ [[]])) env [rootFrame (p ++ (Block.items it).html)] := by
  cases it with
  | none => exact absurd rfl hb.1
  | item m l ls b nx =>
    have hb : (Items.item m l ls b nx).Fit m.isSign := hb.2
    obtain ⟨w1, e1, h1⟩ := st_item_first m h hb.2.1
    have hi : InList (addLine freshItem l) (fresh (.list (some (markDesign m)))) (markDesign m) [fresh .div, rootFrame p] 0 := by
      refine ⟨addLine_klass _ _, rfl, rfl, ?_, rfl, rfl⟩
      intro f hf
      simp only [List.mem_cons, List.not_mem_nil, or_false] at hf
      rcases hf with rfl | rfl
      · exact Or.inr (Or.inr (Or.inl rfl))
      · exact Or.inr (Or.inr (Or.inr rfl))
    have hs : decide (markDesign m = .sign) = m.isSign := by cases m <;> rfl
    obtain ⟨ps, i, L, hp, hi', hpre, w2, e2, h2⟩ := listed _ m l ls b nx rfl w1 env _ _ _ _ h1 hi (by rw [hs]; exact hb)
    simp only [Block.write, Items.write, List.cons_append, List.append_assoc]
    rw [lines_cons]
    have e0 : List.replicate 1 ' ' ++ (m.write ++ ' ' :: write l) = itemHead 0 m ++ write l := by simp [itemHead]
    rw [e0, e1]
    show Yields (w1.lines env _) env _
    have e3 : ls.map write ++ (b.write (1 + 1) ++ (nx.write 1 ++ [[]])) = (ls.map write ++ (b.write (0 + 2) ++ nx.write (0 + 1))) ++ [[]] := by simp
    rw [e3, lines_append, e2]
    show Yields (w2.lines env [[]]) env _
    rw [lines_one]
    obtain ⟨f, gs, e4, e5⟩ := collapse_tower ps i L (fresh .div)
    have e6 : tower ps (i :: L :: [fresh .div, rootFrame p]) = f :: gs ++ fresh .div :: [rootFrame p] := by
      have : tower ps (i :: L :: [fresh .div, rootFrame p]) = tower ps [i, L, fresh .div] ++ [rootFrame p] := by simp [tower]
      rw [this, e4]
      simp
    rw [e6] at h2
    have ho : opened [.div] (f :: gs) = false := by
      have hl : ∀ x ∈ f :: gs, x.klass = .itemize ∨ ∃ d, x.klass = .list (some d) := by
        intro x hx
        have e7 : tower ps [i, L] = f :: gs := by
          have : tower ps [i, L, fresh .div] = tower ps [i, L] ++ [fresh .div] := by simp [tower]
          rw [this] at e4
          exact List.append_cancel_right e4
        rw [← e7] at hx
        rcases List.mem_append.1 hx with hx | hx
        · obtain ⟨y, hy, hx⟩ := List.mem_flatMap.1 hx
          obtain ⟨k1, k2⟩ := hp y hy
          simp only [List.mem_cons, List.not_mem_nil, or_false] at hx
          rcases hx with rfl | rfl
          · exact Or.inl k1
          · exact Or.inr k2
        · simp only [List.mem_cons, List.not_mem_nil, or_false] at hx
          rcases hx with rfl | rfl
          · exact Or.inl hi'.item
          · exact Or.inr ⟨_, hi'.list⟩
      simp only [opened, List.any_eq_false]
      intro x hx
      rcases hl x hx with k | ⟨d, k⟩
      · rw [k]; decide
      · rw [k]; cases d <;> decide
    have := st_blank h2 ho rfl
    rw [e5, shut_inner, list_toks (shut (settle ps i) _) m hi'.list] at this
    have e8 : (shut (settle ps i) L).inner = (Items.item m l ls b nx).html := by
      have e : (shut (settle ps i) L).inner = (shut (settle ps i) L).pre := by simp [Frame.inner, shut, words]
      rw [e, hpre]
      rfl
    rw [e8] at this
    exact this

end Bglib.Doc
