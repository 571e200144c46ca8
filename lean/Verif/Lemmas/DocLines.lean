import Verif.Lemmas.DocEdit
import Verif.Lemmas.DocMarks
/-
What the tokens of lines do to the stack of open elements.
-/
namespace Bglib.Doc
open Spec.Document

variable {w w' : Wiki} {env : Env}

/-- The outermost element is the root. -/
def Rooted (fs : List Frame) : Prop := fs.getLast?.map (·.klass) = some .root

structure Stack (w : Wiki) (env : Env) (fs : List Frame) : Prop where
  pos : At w env fs
  root : Rooted fs

theorem rooted_cons {f : Frame} {fs : List Frame} (h : Rooted fs) : Rooted (f :: fs) := by
  cases fs with
  | nil => cases h
  | cons g gs => simpa [Rooted, List.getLast?_cons_cons] using h

theorem rooted_tail {f g : Frame} {gs : List Frame} (h : Rooted (f :: g :: gs)) : Rooted (g :: gs) := by
  simpa [Rooted, List.getLast?_cons_cons] using h

theorem rooted_head {f f' : Frame} {fs : List Frame} (h : Rooted (f :: fs)) (hk : f'.klass = f.klass) : Rooted (f' :: fs) := by
  cases fs with
  | nil => simp only [Rooted, List.getLast?_singleton, Option.map_some, hk] at h ⊢; exact h
  | cons g gs => exact rooted_cons (rooted_tail h)

theorem unwind_rooted (P : Klass → Bool) (f : Frame) (fs : List Frame) (f' : Frame) (fs' : List Frame) (h : Rooted (f :: fs))
    (e : unwind P f fs = some (f', fs')) : Rooted (f' :: fs') := by
  induction fs generalizing f with
  | nil =>
    simp only [unwind] at e
    split at e
    · cases e; exact h
    · cases e
  | cons g gs ih =>
    simp only [unwind] at e
    split at e
    · cases e; exact h
    · exact ih (shut f g) (rooted_head (f := g) (rooted_tail h) rfl) e

theorem leaveZ_rooted {ks : List Klass} {fs : List Frame} (h : Rooted fs) : Rooted (leaveZ ks fs) := by
  cases fs with
  | nil => cases h
  | cons f fs =>
    simp only [leaveZ]
    split
    · next f' g gs e => exact rooted_head (f := g) (rooted_tail (unwind_rooted _ _ _ _ _ h e)) rfl
    · exact h

theorem st_text {f : Frame} {fs : List Frame} {t : Text} (h : Stack w env (f :: fs)) (ht : t ≠ []) :
    ∃ w', w.text t = .ok w' ∧ Stack w' env ({ f with tail := f.tail ++ t } :: fs) := by
  obtain ⟨w', e, h'⟩ := at_text h.pos ht
  exact ⟨w', e, h', rooted_head h.root rfl⟩

/-- The frame under a new one. -/
def Frame.under (f : Frame) : Frame := { f with pre := f.inner, tail := [] }

/-- A new frame. -/
def fresh (k : Klass) : Frame := ⟨k, none, [], []⟩

theorem st_enter {f : Frame} {fs : List Frame} {k : Klass} {x : Option Extra} (h : Stack w env (f :: fs)) (hk : f.klass.accepts k = true)
    (hr : k ≠ .root) (hg : (⟨k, x, [], []⟩ : Frame).good) :
    ∃ w', w.enter k x = .ok w' ∧ Stack w' env (⟨k, x, [], []⟩ :: f.under :: fs) := by
  obtain ⟨w', e, h'⟩ := at_enter h.pos hk hr hg
  exact ⟨w', e, h', rooted_cons (rooted_head h.root rfl)⟩

theorem st_leave {fs : List Frame} (ks : List Klass) (h : Stack w env fs) (hr : (ks.any fun c => Klass.root.isA c) = false) :
    ∃ w', w.leave ks = .ok w' ∧ Stack w' env (leaveZ ks fs) := by
  obtain ⟨w', e, h'⟩ := at_leave ks h.pos (by
    intro f hf
    have := h.root
    simp only [Rooted, hf, Option.map_some, Option.some.injEq] at this
    rw [this]; exact hr)
  exact ⟨w', e, h', leaveZ_rooted h.root⟩

theorem st_startIfNone {f : Frame} {fs : List Frame} {k : Klass} (h : Stack w env (f :: fs)) (ho : opened [k] (f :: fs) = false)
    (hk : f.klass.accepts k = true) (hr : k ≠ .root) (hg : (fresh k).good) :
    ∃ w', w.startIfNone k = .ok w' ∧ Stack w' env (fresh k :: f.under :: fs) := by
  obtain ⟨w', e, h'⟩ := at_startIfNone h.pos ho hk hr hg
  exact ⟨w', e, h', rooted_cons (rooted_head h.root rfl)⟩

theorem st_startOrEnd {f : Frame} {fs : List Frame} {k : Klass} (h : Stack w env (f :: fs)) (ho : opened [k] (f :: fs) = false)
    (hk : f.klass.accepts k = true) (hr : k ≠ .root) (hg : (fresh k).good) :
    ∃ w', w.startOrEnd k = .ok w' ∧ Stack w' env (fresh k :: f.under :: fs) := by
  obtain ⟨w', e, h'⟩ := at_startOrEnd h.pos ho hk hr hg
  exact ⟨w', e, h', rooted_cons (rooted_head h.root rfl)⟩

theorem st_startOrEnd_end {f g : Frame} {gs : List Frame} {k : Klass} (h : Stack w env (f :: g :: gs)) (hk : f.klass.isA k = true)
    (hr : Klass.root.isA k = false) :
    ∃ w', w.startOrEnd k = .ok w' ∧ Stack w' env (shut f g :: gs) := by
  obtain ⟨w', e, h'⟩ := at_startOrEnd_end h.pos hk (by
    intro r hr'
    have := h.root
    simp only [Rooted, hr', Option.map_some, Option.some.injEq] at this
    rw [this]; exact hr)
  exact ⟨w', e, h', rooted_head (f := g) (rooted_tail h.root) rfl⟩

/-! ### Pieces -/

theorem items_append (w : Wiki) (env : Env) (xs ys : List LineToken) : w.items env (xs ++ ys) = (w.items env xs).bind (·.items env ys) := by
  induction xs generalizing w with
  | nil => rfl
  | cons x xs ih =>
    simp only [List.cons_append, Wiki.items, bind]
    cases w.item env x with
    | error e => rfl
    | ok w' => exact ih w'

theorem items_cons (w : Wiki) (env : Env) (x : LineToken) (xs : List LineToken) : w.items env (x :: xs) = (w.item env x).bind (·.items env xs) := rfl

theorem item_rest (w : Wiki) (env : Env) (c : Char) : w.item env (.rest, [c], []) = w.text [c] := by
  simp [Wiki.item, Wiki.handle]

theorem item_handle (w : Wiki) (env : Env) (p : Pat) (m : Text) (g : List (Text × Text)) (h : m.head? ≠ some '!') :
    w.item env (p, m, g) = w.handle env p m g := by
  simp [Wiki.item, h]

theorem st_plain {f : Frame} {fs : List Frame} (u : Text) (h : Stack w env (f :: fs)) :
    ∃ w', w.items env (plainToks u) = .ok w' ∧ Stack w' env ({ f with tail := f.tail ++ u } :: fs) := by
  induction u generalizing w f with
  | nil => exact ⟨w, rfl, by simpa using h⟩
  | cons c u ih =>
    obtain ⟨w1, e1, h1⟩ := st_text h (t := [c]) (by simp)
    obtain ⟨w2, e2, h2⟩ := ih h1
    refine ⟨w2, ?_, by simpa using h2⟩
    rw [plainToks, List.map_cons, items_cons, item_rest, e1]
    exact e2

/-- The class of a stretch. -/
def styleKlass : Style → Klass
  | .bold => .bold
  | .italic => .italic
  | .underline => .underline
  | .strike => .strike
  | .sub => .sub
  | .sup => .sup
  | .mono | .code => .monospace

/-- No stretch is open. -/
def noStyle (k : Klass) : Bool := [Klass.bold, .italic, .underline, .strike, .sub, .sup, .monospace].all fun s => !k.isA s

/-- Stretches can be entered. -/
def takesStyle (k : Klass) : Bool := [Klass.bold, .italic, .underline, .strike, .sub, .sup, .monospace].all fun s => k.accepts s

structure Open (f : Frame) (fs : List Frame) : Prop where
  takes : takesStyle f.klass = true
  free : ∀ g ∈ f :: fs, noStyle g.klass = true

theorem open_not {f : Frame} {fs : List Frame} (h : Open f fs) (s : Style) : opened [styleKlass s] (f :: fs) = false := by
  simp only [opened, List.any_eq_false]
  intro g hg
  have := h.free g hg
  simp only [noStyle, List.all_cons, List.all_nil, Bool.and_true, Bool.and_eq_true, Bool.not_eq_true'] at this
  obtain ⟨h1, h2, h3, h4, h5, h6, h7⟩ := this
  cases s <;> simp [styleKlass, *]

theorem open_takes {f : Frame} {fs : List Frame} (h : Open f fs) (s : Style) : f.klass.accepts (styleKlass s) = true := by
  have := h.takes
  simp only [takesStyle, List.all_cons, List.all_nil, Bool.and_true, Bool.and_eq_true] at this
  obtain ⟨h1, h2, h3, h4, h5, h6, h7⟩ := this
  cases s <;> simp [styleKlass, *]

theorem handle_style (w : Wiki) (env : Env) (s : Style) (hs : s ≠ .code) (m : Text) :
    w.handle env (stylePat s) m [] = w.startOrEnd (styleKlass s) := by
  cases s <;> first | rfl | exact absurd rfl hs

/-- What a piece adds. -/
def addPiece (f : Frame) : Piece → Frame
  | .plain t => { f with tail := f.tail ++ t }
  | .styled s t => { f with pre := f.inner ++ element s.tag (words t), tail := [] }

def addLine (f : Frame) (l : Line) : Frame := l.foldl addPiece f

theorem style_shut (f : Frame) (s : Style) (t : Text) :
    shut ⟨styleKlass s, none, [], t⟩ f.under = addPiece f (.styled s t) := by
  have e : openToks (styleKlass s) = [.opening s.tag] ∧ closeToks (styleKlass s) = [.closing s.tag] := by cases s <;> exact ⟨rfl, rfl⟩
  simp [shut, Frame.under, addPiece, Frame.toks, Frame.inner, e.1, e.2, element]

theorem fresh_good (k : Klass) (h1 : k ≠ .text) (h2 : k ≠ .list none) : (fresh k).good := ⟨h1, h2, Or.inl rfl⟩

theorem st_style {f : Frame} {fs : List Frame} (s : Style) (u : Text) (h : Stack w env (f :: fs)) (ho : Open f fs) :
    ∃ w', w.items env (pieceToks (.styled s u)) = .ok w' ∧ Stack w' env (addPiece f (.styled s u) :: fs) := by
  have hb : s.before.head? ≠ some '!' := by cases s <;> simp [Style.before]
  have ha : s.after.head? ≠ some '!' := by cases s <;> simp [Style.after, Style.before]
  have hr : styleKlass s ≠ .root := by cases s <;> simp [styleKlass]
  have hg : (fresh (styleKlass s)).good := fresh_good _ (by cases s <;> simp [styleKlass]) (by cases s <;> simp [styleKlass])
  have h1 : ∃ w1, w.item env (stylePat s, s.before, []) = .ok w1 ∧ Stack w1 env (fresh (styleKlass s) :: f.under :: fs) := by
    rw [item_handle _ _ _ _ _ hb]
    by_cases hs : s = .code
    · subst hs
      exact st_enter h (open_takes ho .code) hr hg
    · rw [handle_style _ _ _ hs]
      exact st_startOrEnd h (open_not ho s) (open_takes ho s) hr hg
  obtain ⟨w1, e1, h1⟩ := h1
  obtain ⟨w2, e2, h2⟩ := st_plain u h1
  have h3 : ∃ w3, w2.item env (stylePat' s, s.after, []) = .ok w3 ∧ Stack w3 env (addPiece f (.styled s u) :: fs) := by
    rw [item_handle _ _ _ _ _ ha, ← style_shut]
    by_cases hs : s = .code
    · subst hs
      have := st_leave [.monospace] h2 (by decide)
      rw [leaveZ_self (by rfl)] at this
      exact this
    · have e : stylePat' s = stylePat s := by cases s <;> first | rfl | exact absurd rfl hs
      rw [e, handle_style _ _ _ hs]
      exact st_startOrEnd_end h2 (by cases s <;> rfl) (by cases s <;> decide)
  obtain ⟨w3, e3, h3⟩ := h3
  refine ⟨w3, ?_, h3⟩
  rw [pieceToks, List.cons_append, items_cons, e1, Except.bind, items_append, e2, Except.bind, items_cons, e3]
  rfl

theorem addPiece_klass (f : Frame) (p : Piece) : (addPiece f p).klass = f.klass := by cases p <;> rfl
theorem addPiece_extra (f : Frame) (p : Piece) : (addPiece f p).extra = f.extra := by cases p <;> rfl
theorem addLine_klass (f : Frame) (l : Line) : (addLine f l).klass = f.klass := by
  induction l generalizing f with
  | nil => rfl
  | cons p l ih => rw [addLine, List.foldl_cons]; exact (ih _).trans (addPiece_klass f p)
theorem addLine_extra (f : Frame) (l : Line) : (addLine f l).extra = f.extra := by
  induction l generalizing f with
  | nil => rfl
  | cons p l ih => rw [addLine, List.foldl_cons]; exact (ih _).trans (addPiece_extra f p)

theorem open_head {f f' : Frame} {fs : List Frame} (h : Open f fs) (hk : f'.klass = f.klass) : Open f' fs := by
  refine ⟨by rw [hk]; exact h.takes, ?_⟩
  intro g hg
  rcases List.mem_cons.1 hg with rfl | hg
  · rw [hk]; exact h.free f (List.mem_cons_self ..)
  · exact h.free g (List.mem_cons_of_mem _ hg)

theorem st_line {f : Frame} {fs : List Frame} (l : Line) (h : Stack w env (f :: fs)) (ho : Open f fs) :
    ∃ w', w.items env (lineToks l) = .ok w' ∧ Stack w' env (addLine f l :: fs) := by
  induction l generalizing w f with
  | nil => exact ⟨w, rfl, h⟩
  | cons p l ih =>
    have h1 : ∃ w1, w.items env (pieceToks p) = .ok w1 ∧ Stack w1 env (addPiece f p :: fs) := by
      cases p with
      | plain u => exact st_plain u h
      | styled s u => exact st_style s u h ho
    obtain ⟨w1, e1, h1⟩ := h1
    obtain ⟨w2, e2, h2⟩ := ih h1 (open_head ho (addPiece_klass f p))
    refine ⟨w2, ?_, h2⟩
    rw [lineToks, List.flatMap_cons, items_append, e1]
    exact e2

theorem addLine_inner (f : Frame) (l : Line) : (addLine f l).inner = f.pre ++ flow f.tail l := by
  induction l generalizing f with
  | nil => rfl
  | cons p l ih =>
    rw [addLine, List.foldl_cons]
    refine (ih _).trans ?_
    cases p with
    | plain u => rfl
    | styled s u => simp [addPiece, flow, Frame.inner]

theorem addLine_append (f : Frame) (l l' : Line) : addLine (addLine f l) l' = addLine f (l ++ l') := by
  simp [addLine]

end Bglib.Doc
