import Verif.Lemmas.DocTree
/-
What the operations of the editor do to the stack of open elements.
-/
namespace Bglib.Doc
open Spec.Document

variable {w w' : Wiki} {env : Env}

/-- A list with a node changed and one added. -/
def pushed (l : List Node) (c : Nat) (x : Node) : List Node :=
  l.modify c (fun n => { n with children := n.children ++ [l.length] }) ++ [x]

theorem pushed_length (l : List Node) (c : Nat) (x : Node) : (pushed l c x).length = l.length + 1 := by simp [pushed]

theorem pushed_other {l : List Node} {c : Nat} {x : Node} {j : Nat} (h : j ≠ c) (hj : j < l.length) : (pushed l c x)[j]? = l[j]? := by
  rw [pushed, List.getElem?_append_left (by simpa using hj), List.getElem?_modify]
  cases l[j]? <;> simp [Ne.symm h]

theorem pushed_at {l : List Node} {c : Nat} {x n : Node} (h : l[c]? = some n) :
    (pushed l c x)[c]? = some { n with children := n.children ++ [l.length] } := by
  have hc : c < l.length := by
    rcases Nat.lt_or_ge c l.length with k | k
    · exact k
    · rw [List.getElem?_eq_none k] at h; cases h
  rw [pushed, List.getElem?_append_left (by simpa using hc), List.getElem?_modify, h]
  simp

theorem pushed_last (l : List Node) (c : Nat) (x : Node) : (pushed l c x)[l.length]? = some x := by
  rw [pushed, List.getElem?_append_right (by simp)]
  simp

theorem lt_of_get {l : List Node} {c : Nat} {n : Node} (h : l[c]? = some n) : c < l.length := by
  rcases Nat.lt_or_ge c l.length with k | k
  · exact k
  · rw [List.getElem?_eq_none k] at h; cases h

theorem extra_fresh (hs : ∀ x ∈ w.side, x.1 < w.doc.nodes.length) : w.extra w.doc.nodes.length = none := by
  simp only [Wiki.extra, Option.map_eq_none_iff, List.find?_eq_none]
  intro x hx
  have := hs x hx
  simp
  omega

theorem at_text {f : Frame} {fs : List Frame} {t : Text} (h : At w env (f :: fs)) (ht : t ≠ []) :
    ∃ w', w.text t = .ok w' ∧ At w' env ({ f with tail := f.tail ++ t } :: fs) := by
  obtain ⟨⟨c, hc, hf, n, hn, hk, hx, hkids, hb⟩, hs⟩ := h
  have hlt := lt_of_get hn
  rcases hkids with ⟨h1, h2, h3⟩ | ⟨h1, ks, j, h2, h3, h4, h5, h6, h7⟩
  · -- a new node
    refine ⟨⟨⟨pushed w.doc.nodes c ⟨.text, some c, [], t⟩, some c⟩, w.side⟩, ?_, ⟨c, rfl, hf, _, pushed_at hn, hk, hx, ?_, ?_⟩, ?_⟩
    · have e : w.doc.appendText t = .ok { w.doc with nodes := pushed w.doc.nodes c ⟨.text, some c, [], t⟩ } := by
        simp only [Editor.appendText, hc, Option.bind_some, hn, Option.map_some]
        cases hl : n.children.getLast? with
        | none => simp only [Option.bind_none]; rfl
        | some j =>
          obtain ⟨m, h4, h5⟩ := h3 j hl
          simp only [Option.bind_some, h4, Option.map_some, if_neg h5]
          rfl
      simp only [Wiki.text, e, hc]
    · refine Or.inr ⟨by simp [h1, ht], n.children, w.doc.nodes.length, rfl, hlt, by simp [pushed_length], ?_, ?_, extra_fresh hs⟩
      · exact emits_stable h2 fun j k1 k2 => ⟨pushed_other (by omega) k2, rfl⟩
      · rw [pushed_last, h1]; rfl
    · exact below_stable hb fun j hj => ⟨pushed_other (by omega) (by omega), rfl⟩
    · intro x hx
      have := hs x hx
      simp only [pushed_length]
      omega
  · -- more text
    have hget : ∀ i, i ≠ j → (w.doc.nodes.modify j fun m => { m with text := m.text ++ t })[i]? = w.doc.nodes[i]? := by
      intro i hi
      rw [List.getElem?_modify]
      cases w.doc.nodes[i]? <;> simp [Ne.symm hi]
    refine ⟨⟨⟨w.doc.nodes.modify j fun m => { m with text := m.text ++ t }, some c⟩, w.side⟩, ?_,
      ⟨c, rfl, hf, n, (hget c (by omega)).trans hn, hk, hx, ?_, ?_⟩, ?_⟩
    · have e : w.doc.appendText t = .ok { w.doc with nodes := w.doc.nodes.modify j fun m => { m with text := m.text ++ t } } := by
        simp only [Editor.appendText, hc, Option.bind_some, hn, Option.map_some, h2, List.getLast?_concat, h6, if_true]
      simp only [Wiki.text, e, hc]
    · refine Or.inr ⟨by simp [ht], ks, j, h2, h3, by simpa using h4, ?_, ?_, h7⟩
      · exact emits_stable h5 fun i k1 k2 => ⟨hget i (by omega), rfl⟩
      · simp [List.getElem?_modify, h6]
    · exact below_stable hb fun i hi => ⟨hget i (by omega), rfl⟩
    · intro x hx
      simpa using hs x hx

theorem at_enter {f : Frame} {fs : List Frame} {k : Klass} {x : Option Extra} (h : At w env (f :: fs)) (hk : f.klass.accepts k = true)
    (hr : k ≠ .root) (hg : (⟨k, x, [], []⟩ : Frame).good) :
    ∃ w', w.enter k x = .ok w' ∧ At w' env (⟨k, x, [], []⟩ :: { f with pre := f.inner, tail := [] } :: fs) := by
  obtain ⟨⟨c, hc, hf, n, hn, hkl, hx, hkids, hb⟩, hs⟩ := h
  have hlt := lt_of_get hn
  have he := kids_emits hkids
  let side := match x with
    | none => w.side
    | some x => (w.doc.nodes.length, x) :: w.side
  refine ⟨⟨⟨pushed w.doc.nodes c ⟨k, some c, [], []⟩, some w.doc.nodes.length⟩, side⟩, ?_, ?_⟩
  · have e : w.doc.append k = .ok (⟨pushed w.doc.nodes c ⟨k, some c, [], []⟩, some c⟩, w.doc.nodes.length) := by
      simp only [Editor.append, if_neg hr, hc, Editor.climb, hn, hkl, hk, if_true]
      rfl
    simp only [Wiki.enter, e]
    rfl
  · have hold : ∀ j, j < w.doc.nodes.length → (⟨⟨pushed w.doc.nodes c ⟨k, some c, [], []⟩, some w.doc.nodes.length⟩, side⟩ : Wiki).extra j = w.extra j := by
      intro j hj
      simp only [Wiki.extra, side]
      cases x with
      | none => rfl
      | some x => rw [List.find?_cons_of_neg]; simp; omega
    refine ⟨⟨w.doc.nodes.length, rfl, hg, _, pushed_last _ _ _, rfl, ?_, Or.inl ⟨rfl, .nil _, by simp⟩, hlt, rfl, hf, _, _, pushed_at hn,
      hkl, rfl, ?_, ?_, ?_⟩, ?_⟩
    · cases x with
      | none => exact extra_fresh hs
      | some x => simp [Wiki.extra, side]
    · rw [hold c hlt]; exact hx
    · exact emits_stable he fun j k1 k2 => ⟨pushed_other (by omega) k2, hold j k2⟩
    · exact below_stable hb fun j hj => ⟨pushed_other (by omega) (by omega), hold j (by omega)⟩
    · intro y hy
      simp only [pushed_length]
      cases x with
      | none => have := hs y hy; omega
      | some x =>
        rcases List.mem_cons.1 hy with rfl | hy
        · exact Nat.lt_succ_self _
        · have := hs y hy; omega

theorem pos_goto {c : Nat} {f : Frame} {fs : List Frame} {o : Option Nat} (h : AtPos w env c f fs) :
    AtPos { w with doc := { w.doc with current := o } } env c f fs := by
  obtain ⟨hf, n, hn, hk, hx, hkids, hb⟩ := h
  refine ⟨hf, n, hn, hk, hx, ?_, below_stable hb fun j _ => ⟨rfl, rfl⟩⟩
  rcases hkids with ⟨h1, h2, h3⟩ | ⟨h1, ks, j, h2, h3, h4, h5, h6, h7⟩
  · exact Or.inl ⟨h1, emits_stable h2 fun j _ _ => ⟨rfl, rfl⟩, h3⟩
  · exact Or.inr ⟨h1, ks, j, h2, h3, h4, emits_stable h5 fun j _ _ => ⟨rfl, rfl⟩, h6, h7⟩

/-- Closing elements up to one of a kind. -/
def unwind (P : Klass → Bool) : Frame → List Frame → Option (Frame × List Frame)
  | f, [] => if P f.klass then some (f, []) else none
  | f, g :: gs => if P f.klass then some (f, g :: gs) else unwind P (shut f g) gs

theorem at_climb (P : Klass → Bool) {c : Nat} {f : Frame} {fs : List Frame} (h : AtPos w env c f fs) (fuel : Nat) (hf : c < fuel) :
    match unwind P f fs with
    | none => w.doc.climb (fun n => P n.klass) fuel (some c) = .ok none
    | some (f', fs') => ∃ i, w.doc.climb (fun n => P n.klass) fuel (some c) = .ok (some i) ∧ AtPos w env i f' fs' := by
  induction fs generalizing c f fuel with
  | nil =>
    cases fuel with
    | zero => omega
    | succ k =>
      have hh := h
      obtain ⟨hg, n, hn, hk, hx, hkids, hb⟩ := h
      simp only [unwind, Editor.climb, hn, hk]
      by_cases hP : P f.klass = true
      · simp only [hP, if_true]
        exact ⟨c, rfl, hh⟩
      · simp only [hP, Bool.false_eq_true, if_false]
        cases hp : n.parent with
        | none => cases k <;> rfl
        | some p => rw [hp] at hb; exact False.elim hb
  | cons g gs ih =>
    cases fuel with
    | zero => omega
    | succ k =>
      obtain ⟨n', p, hn', hp, hpc, hat⟩ := at_close h
      have hh := h
      obtain ⟨hg, n, hn, hk, hx, hkids, hb⟩ := h
      rw [hn'] at hn
      obtain rfl := Option.some.inj hn
      simp only [unwind, Editor.climb, hn', hk]
      by_cases hP : P f.klass = true
      · simp only [hP, if_true]
        exact ⟨c, rfl, hh⟩
      · simp only [hP, hp, Bool.false_eq_true, if_false]
        exact ih hat k (by omega)

theorem pos_lt {c : Nat} {f : Frame} {fs : List Frame} (h : AtPos w env c f fs) : c < w.doc.nodes.length := by
  obtain ⟨_, n, hn, _⟩ := h
  exact lt_of_get hn

/-- Whether an element of one of the kinds is open. -/
def opened (ks : List Klass) (fs : List Frame) : Bool := fs.any fun f => ks.any fun c => f.klass.isA c

theorem unwind_none (P : Klass → Bool) (f : Frame) (fs : List Frame) :
    unwind P f fs = none ↔ ((f :: fs).any fun g => P g.klass) = false := by
  induction fs generalizing f with
  | nil => simp [unwind]
  | cons g gs ih =>
    simp only [unwind]
    by_cases h : P f.klass = true
    · simp [h]
    · rw [if_neg h, ih]
      simp [h, shut]

theorem at_ancestor {fs : List Frame} (ks : List Klass) (h : At w env fs) :
    if opened ks fs then ∃ i, w.ancestor ks = .ok (some i) else w.ancestor ks = .ok none := by
  cases fs with
  | nil => exact False.elim h
  | cons f fs =>
    obtain ⟨⟨c, hc, hat⟩, hs⟩ := h
    have := at_climb (fun k => ks.any fun c => k.isA c) hat (w.doc.nodes.length + 1) (by have := pos_lt hat; omega)
    simp only [Wiki.ancestor, hc]
    split at this
    · next e =>
      rw [if_neg]
      · exact this
      · rw [unwind_none] at e
        simp only [opened, e]; simp
    · next f' fs' e =>
      obtain ⟨i, hi, _⟩ := this
      rw [if_pos]
      · exact ⟨i, hi⟩
      · cases ho : opened ks (f :: fs) with
        | true => rfl
        | false => rw [(unwind_none (fun k => ks.any fun c => k.isA c) f fs).2 ho] at e; cases e

/-- The innermost one. -/
theorem at_self {f : Frame} {fs : List Frame} (ks : List Klass) (h : At w env (f :: fs)) (hk : (ks.any fun c => f.klass.isA c) = true) :
    ∃ i, w.doc.current = some i ∧ w.ancestor ks = .ok (some i) := by
  obtain ⟨⟨c, hc, hf, n, hn, hkl, _⟩, hs⟩ := h
  refine ⟨c, hc, ?_⟩
  simp only [Wiki.ancestor, hc, Editor.climb, hn, hkl, hk, if_true]

/-- Leaving. -/
def leaveZ (ks : List Klass) : List Frame → List Frame
  | [] => []
  | f :: fs => match unwind (fun k => ks.any fun c => k.isA c) f fs with
    | some (f', g :: gs) => shut f' g :: gs
    | _ => f :: fs

theorem at_leave {fs : List Frame} (ks : List Klass) (h : At w env fs)
    (hr : ∀ f, fs.getLast? = some f → (ks.any fun c => f.klass.isA c) = false) :
    ∃ w', w.leave ks = .ok w' ∧ At w' env (leaveZ ks fs) := by
  cases fs with
  | nil => exact False.elim h
  | cons f fs =>
    obtain ⟨⟨c, hc, hat⟩, hs⟩ := h
    have := at_climb (fun k => ks.any fun c => k.isA c) hat (w.doc.nodes.length + 1) (by have := pos_lt hat; omega)
    simp only [Wiki.leave, hc, leaveZ]
    split at this
    · next e =>
      rw [this, e]
      exact ⟨w, rfl, ⟨c, hc, hat⟩, hs⟩
    · next f' fs' e =>
      obtain ⟨i, hi, hat'⟩ := this
      rw [hi, e]
      cases fs' with
      | nil =>
        exfalso
        -- the last frame is of the kind
        have key : ∀ (fs : List Frame) (f : Frame), unwind (fun k => ks.any fun c => k.isA c) f fs = some (f', []) →
            ∃ g, (f :: fs).getLast? = some g ∧ (ks.any fun c => g.klass.isA c) = true := by
          intro fs
          induction fs with
          | nil =>
            intro f e
            simp only [unwind] at e
            split at e
            · next h => exact ⟨f, rfl, h⟩
            · cases e
          | cons g gs ih =>
            intro f e
            simp only [unwind] at e
            split at e
            · cases e
            · obtain ⟨g', h1, h2⟩ := ih _ e
              cases gs with
              | nil =>
                cases h1
                exact ⟨g, rfl, h2⟩
              | cons a b =>
                refine ⟨g', ?_, h2⟩
                rw [List.getLast?_cons_cons] at h1 ⊢
                rw [List.getLast?_cons_cons]
                exact h1
        obtain ⟨g, h1, h2⟩ := key fs f e
        rw [hr g h1] at h2
        cases h2
      | cons g gs =>
        obtain ⟨n, p, hn, hp, _, hat''⟩ := at_close hat'
        refine ⟨{ w with doc := { w.doc with current := w.doc.parentOf i } }, rfl, ⟨p, ?_, ?_⟩, hs⟩
        · simp only [Editor.parentOf, hn, Option.bind_some, hp]
        · exact pos_goto hat''

theorem leaveZ_closed {ks : List Klass} {fs : List Frame} (h : opened ks fs = false) : leaveZ ks fs = fs := by
  cases fs with
  | nil => rfl
  | cons f fs => simp only [leaveZ, (unwind_none (fun k => ks.any fun c => k.isA c) f fs).2 h]

theorem leaveZ_self {ks : List Klass} {f g : Frame} {gs : List Frame} (h : (ks.any fun c => f.klass.isA c) = true) :
    leaveZ ks (f :: g :: gs) = shut f g :: gs := by
  simp only [leaveZ, unwind, h, if_true]

/-- Closing all but the last. -/
def collapse : Frame → List Frame → Frame
  | f, [] => f
  | f, g :: gs => collapse (shut f g) gs

theorem unwind_deep (P : Klass → Bool) (f : Frame) (gs : List Frame) (t : Frame) (rs : List Frame)
    (h : ∀ g ∈ f :: gs, P g.klass = false) (ht : P t.klass = true) :
    ∃ t', t' = collapse f (gs ++ [t]) ∧ unwind P f (gs ++ t :: rs) = some (t', rs) := by
  induction gs generalizing f with
  | nil =>
    refine ⟨_, rfl, ?_⟩
    have h0 := h f (List.mem_cons_self ..)
    simp only [List.nil_append, unwind, h0, Bool.false_eq_true, if_false]
    have : P (shut f t).klass = true := ht
    cases rs with
    | nil => simp only [unwind, this, if_true]; rfl
    | cons r rs => simp only [unwind, this, if_true]; rfl
  | cons g gs ih =>
    have h0 := h f (List.mem_cons_self ..)
    simp only [List.cons_append, unwind, h0, Bool.false_eq_true, if_false]
    refine ih (shut f g) ?_
    intro x hx
    rcases List.mem_cons.1 hx with rfl | hx
    · exact h g (by simp)
    · exact h x (by simp [hx])

theorem leaveZ_deep {ks : List Klass} (f : Frame) (gs : List Frame) (t r : Frame) (rs : List Frame)
    (h : opened ks (f :: gs) = false) (ht : (ks.any fun c => t.klass.isA c) = true) :
    leaveZ ks (f :: gs ++ t :: r :: rs) = shut (collapse f (gs ++ [t])) r :: rs := by
  obtain ⟨t', e, h'⟩ := unwind_deep (fun k => ks.any fun c => k.isA c) f gs t (r :: rs)
    (by intro g hg; have := List.any_eq_false.1 h g hg; simpa using this) ht
  rw [List.cons_append]
  simp only [leaveZ, h']
  rw [e]

theorem at_count (k : Klass) {c : Nat} {f : Frame} {fs : List Frame} (h : AtPos w env c f fs) (fuel : Nat) (hf : c < fuel) :
    w.countNesting k fuel (some c) = .ok ((f :: fs).countP fun g => g.klass.isA k) := by
  induction fs generalizing c f fuel with
  | nil =>
    cases fuel with
    | zero => omega
    | succ m =>
      obtain ⟨hg, n, hn, hk, hx, hkids, hb⟩ := h
      simp only [Wiki.countNesting, hn, hk]
      cases hp : n.parent with
      | none =>
        have : w.countNesting k m none = .ok 0 := by cases m <;> rfl
        rw [this]
        simp [List.countP_cons]
      | some p => rw [hp] at hb; exact False.elim hb
  | cons g gs ih =>
    cases fuel with
    | zero => omega
    | succ m =>
      obtain ⟨n', p, hn', hp, hpc, hat⟩ := at_close h
      obtain ⟨hg, n, hn, hk, hx, hkids, hb⟩ := h
      rw [hn'] at hn
      obtain rfl := Option.some.inj hn
      simp only [Wiki.countNesting, hn', hk, hp, ih hat m (by omega)]
      simp [List.countP_cons, shut]

theorem at_nesting (k : Klass) {fs : List Frame} (h : At w env fs) : w.nesting k = .ok (fs.countP fun g => g.klass.isA k) := by
  cases fs with
  | nil => exact False.elim h
  | cons f fs =>
    obtain ⟨⟨c, hc, hat⟩, hs⟩ := h
    rw [Wiki.nesting, hc]
    exact at_count k hat _ (by have := pos_lt hat; omega)

theorem at_startIfNone_there {fs : List Frame} {k : Klass} (h : At w env fs) (ho : opened [k] fs = true) : w.startIfNone k = .ok w := by
  have := at_ancestor [k] h
  rw [if_pos ho] at this
  obtain ⟨i, e⟩ := this
  simp only [Wiki.startIfNone, e, bind, Except.bind, pure, Except.pure]

theorem at_startIfNone {f : Frame} {fs : List Frame} {k : Klass} (h : At w env (f :: fs)) (ho : opened [k] (f :: fs) = false)
    (hk : f.klass.accepts k = true) (hr : k ≠ .root) (hg : (⟨k, none, [], []⟩ : Frame).good) :
    ∃ w', w.startIfNone k = .ok w' ∧ At w' env (⟨k, none, [], []⟩ :: { f with pre := f.inner, tail := [] } :: fs) := by
  have := at_ancestor [k] h
  rw [if_neg (by rw [ho]; simp)] at this
  simp only [Wiki.startIfNone, this, bind, Except.bind]
  exact at_enter h hk hr hg

theorem at_startOrEnd {f : Frame} {fs : List Frame} {k : Klass} (h : At w env (f :: fs)) (ho : opened [k] (f :: fs) = false)
    (hk : f.klass.accepts k = true) (hr : k ≠ .root) (hg : (⟨k, none, [], []⟩ : Frame).good) :
    ∃ w', w.startOrEnd k = .ok w' ∧ At w' env (⟨k, none, [], []⟩ :: { f with pre := f.inner, tail := [] } :: fs) := by
  have := at_ancestor [k] h
  rw [if_neg (by rw [ho]; simp)] at this
  simp only [Wiki.startOrEnd, this, bind, Except.bind]
  exact at_enter h hk hr hg

theorem at_startOrEnd_end {f g : Frame} {gs : List Frame} {k : Klass} (h : At w env (f :: g :: gs)) (hk : f.klass.isA k = true)
    (hr : ∀ r, (f :: g :: gs).getLast? = some r → r.klass.isA k = false) :
    ∃ w', w.startOrEnd k = .ok w' ∧ At w' env (shut f g :: gs) := by
  have := at_ancestor [k] h
  rw [if_pos (by simp [opened, hk])] at this
  obtain ⟨i, e⟩ := this
  simp only [Wiki.startOrEnd, e, bind, Except.bind]
  have := at_leave [k] h (by intro r hr'; simp [hr r hr'])
  rw [leaveZ_self (by simp [hk])] at this
  exact this

/-- The HTML of a finished document. -/
theorem at_html {f : Frame} (h : At w env [f]) (hk : f.klass = .root) : w.html env = .ok f.inner := by
  obtain ⟨⟨c, hc, hf, n, hn, hkl, hx, hkids, hb⟩, hs⟩ := h
  have hc0 : c = 0 := by
    cases hp : n.parent with
    | none => rw [hp] at hb; exact hb
    | some p => rw [hp] at hb; exact False.elim hb
  subst hc0
  have e := emits_accept (kids_emits hkids) w.doc.nodes.length (by omega)
  simp only [Wiki.html, Wiki.accept, hn, good_opens hf hkl hx, good_closes hf hkl hx, e, bind, Except.bind, pure, Except.pure, hk]
  simp [openToks, closeToks, Node.opens, Node.closes, Klass.tag]

theorem at_start : At Wiki.start env [⟨.root, none, [], []⟩] := by
  refine ⟨⟨0, rfl, ⟨by simp, by simp, Or.inl rfl⟩, _, rfl, rfl, rfl, Or.inl ⟨rfl, .nil 0, by simp⟩, rfl⟩, by simp [Wiki.start]⟩

end Bglib.Doc
