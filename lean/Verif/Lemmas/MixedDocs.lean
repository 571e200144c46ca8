import Verif.Lemmas.MixedLines
/-
Documents of paragraphs with links, macros and special characters.
-/
namespace Bglib.Doc
open Spec Spec.Mixed
open Spec.Document (Style words element)

variable {w w' : Wiki} {env : Env}

/-! ### The text of lines -/

/-- No line breaks. -/
def Unbroken (t : Text) : Prop := ∀ c ∈ t, c ≠ '\n' ∧ c ≠ '\r'

theorem unbroken_append {a b : Text} (ha : Unbroken a) (hb : Unbroken b) : Unbroken (a ++ b) := by
  intro c hc
  rcases List.mem_append.1 hc with h | h
  · exact ha c h
  · exact hb c h

theorem unbroken_cons {c : Char} {t : Text} (hc : c ≠ '\n' ∧ c ≠ '\r') (ht : Unbroken t) : Unbroken (c :: t) := by
  intro d hd
  rcases List.mem_cons.1 hd with rfl | h
  · exact hc
  · exact ht d h

theorem unbroken_all {kind : Char → Bool} {t : Text} (h : t.all kind = true) (h1 : kind '\n' = false) (h2 : kind '\r' = false) : Unbroken t := by
  intro c hc
  have := List.all_eq_true.1 h c hc
  constructor
  · rintro rfl; rw [h1] at this; cases this
  · rintro rfl; rw [h2] at this; cases this

theorem unbroken_of (t : Text) (h : (t.all fun c => !(c == '\n' || c == '\r')) = true) : Unbroken t := by
  intro c hc
  have := List.all_eq_true.1 h c hc
  simpa using this

/-- Neither breaks nor a colon at the end. -/
def Closed (t : Text) : Prop := Unbroken t ∧ t.getLast? ≠ some ':'

theorem last_append {a b : Text} (ha : a.getLast? ≠ some ':') (hb : b.getLast? ≠ some ':') : (a ++ b).getLast? ≠ some ':' := by
  rw [List.getLast?_append]
  cases h : b.getLast? with
  | none => simpa using ha
  | some c => rw [h] at hb; simpa using hb

theorem closed_append {a b : Text} (ha : Closed a) (hb : Closed b) : Closed (a ++ b) :=
  ⟨unbroken_append ha.1 hb.1, last_append ha.2 hb.2⟩

theorem last_all {kind : Char → Bool} {t : Text} (h : t.all kind = true) (hc : kind ':' = false) : t.getLast? ≠ some ':' := by
  intro e
  have := List.all_eq_true.1 h _ (List.mem_of_getLast? e)
  rw [hc] at this; cases this

/-- Whatever comes before some characters without a colon. -/
theorem closed_behind {a b : Text} (ha : Unbroken a) (hb : Unbroken b) (h0 : b ≠ []) (hl : b.getLast? ≠ some ':') : Closed (a ++ b) := by
  refine ⟨unbroken_append ha hb, ?_⟩
  rw [List.getLast?_append]
  cases h : b.getLast? with
  | none => exact absurd (List.getLast?_eq_none_iff.1 h) h0
  | some c => rw [h] at hl; simpa using hl

theorem closed_filled {kind : Char → Bool} {a b : Text} (ha : Unbroken a) (hb : Filled kind b) (h1 : kind '\n' = false) (h2 : kind '\r' = false)
    (h3 : kind ':' = false) : Closed (a ++ b) :=
  closed_behind ha (unbroken_all hb.2 h1 h2) hb.1 (last_all hb.2 h3)

theorem closed_url {secure : Bool} {rest : Text} (h : Filled urlChar rest) : Closed (url secure rest) :=
  closed_filled (by cases secure <;> exact unbroken_of _ (by decide)) h (by decide) (by decide) (by decide)

theorem closed_link (l : Link) (h : l.Fit) : Closed l.write := by
  have hd : ∀ (a n : Text), (a.all fun c => !(c == '\n' || c == '\r')) = true → Filled digit n → Closed (a ++ n) :=
    fun a n ha hn => closed_filled (unbroken_of a ha) hn (by decide) (by decide) (by decide)
  have hb : ∀ (a b : Text), Unbroken a → b = t!"]" ∨ b = t!"}" → Closed (a ++ b) := by
    rintro a b ha (rfl | rfl)
    · exact closed_behind ha (unbroken_of _ (by decide)) (by simp) (by simp)
    · exact closed_behind ha (unbroken_of _ (by decide)) (by simp) (by simp)
  cases l with
  | entry long n =>
    cases long
    · exact hd ['#'] n (by decide) h
    · exact hd t!"entry:" n (by decide) h
  | query long n =>
    cases long
    · exact hb ('{' :: n) _ (hd ['{'] n (by decide) h).1 (by simp)
    · exact hd t!"query:" n (by decide) h
  | game form n =>
    revert form
    refine fin3 ?_ ?_ ?_
    · intro h; exact hd ['m'] n (by decide) h
    · intro h; exact hd t!"match:" n (by decide) h
    · intro h; exact hb ('[' :: n) _ (hd ['['] n (by decide) h).1 (by simp)
  | page name => exact hb (t!"[wiki:" ++ name) _ (unbroken_append (unbroken_of _ (by decide)) (unbroken_all h.2 (by decide) (by decide))) (by simp)
  | camel ps =>
    have hp := h.2
    clear h
    show Closed (joined ps)
    induction ps with
    | nil => exact ⟨(by intro c hc; cases hc), by simp [joined]⟩
    | cons x ps ih =>
      rw [joined, List.flatMap_cons]
      refine closed_append ?_ (ih fun y hy => hp y (List.mem_cons_of_mem _ hy))
      obtain ⟨hc, hx⟩ := hp x (List.mem_cons_self ..)
      refine closed_filled (a := [x.1]) ?_ hx (by decide) (by decide) (by decide)
      exact unbroken_all (kind := capital) (by simp [hc]) (by decide) (by decide)
  | web secure rest => exact closed_url h.1
  | named secure rest d =>
    cases d with
    | none => exact hb ('[' :: url secure rest) _ (unbroken_cons (by decide) (closed_url h.1).1) (by simp)
    | some d =>
      refine hb ('[' :: url secure rest ++ ' ' :: d) _ ?_ (by simp)
      refine unbroken_append (unbroken_cons (by decide) (closed_url h.1.1).1) (unbroken_cons (by decide) ?_)
      intro c hc
      exact ⟨fun e => h.2.2.2.1 (e ▸ hc), fun e => h.2.2.2.2 (e ▸ hc)⟩

theorem closed_mark (s : Style) : Closed s.before ∧ Closed s.after := by
  cases s <;> exact ⟨⟨unbroken_of _ (by decide), by decide⟩, ⟨unbroken_of _ (by decide), by decide⟩⟩

theorem closed_plain {u : Text} (h : u.all Document.plain = true) : Closed u :=
  ⟨unbroken_all h (by decide) (by decide), last_all h (by decide)⟩

theorem closed_elt (e : Elt) (h : e.Fit) : Closed e.write := by
  cases e with
  | plain u => exact closed_plain h
  | styled s u => exact closed_append (closed_append (closed_mark s).1 (closed_plain h.2)) (closed_mark s).2
  | link l => exact closed_link l h
  | escaped l => exact closed_append (a := ['!']) ⟨unbroken_of _ (by decide), by decide⟩ (closed_link l h)
  | escapedMark s => exact closed_append (a := ['!']) ⟨unbroken_of _ (by decide), by decide⟩ (closed_mark s).1
  | «macro» name args =>
    refine closed_behind (unbroken_append (unbroken_append (unbroken_of _ (by decide)) (unbroken_all h.1.2 (by decide) (by decide))) ?_)
      (unbroken_of _ (by decide)) (by simp) (by simp)
    cases args with
    | none => intro c hc; cases hc
    | some a =>
      exact unbroken_append (unbroken_cons (by decide) (unbroken_all (h.2.1 a rfl).2 (by decide) (by decide))) (unbroken_of _ (by decide))
  | special c => rcases h with rfl | rfl | rfl | rfl <;> exact ⟨unbroken_of _ (by decide), by decide⟩

theorem fit_all {l : Mixed.Line} (h : Mixed.Fit l) : ∀ e ∈ l, e.Fit := by
  induction l with
  | nil => intro e he; cases he
  | cons x l ih =>
    intro e he
    rcases List.mem_cons.1 he with rfl | he
    · exact h.1
    · exact ih h.2.2 e he

theorem closed_line {l : Mixed.Line} (h : Mixed.Fit l) : Closed (Mixed.write l) := by
  have := fit_all h
  clear h
  induction l with
  | nil => exact ⟨(by intro c hc; cases hc), by simp [Mixed.write]⟩
  | cons x l ih =>
    rw [Mixed.write, List.flatMap_cons]
    exact closed_append (closed_elt x (this x (by simp))) (ih fun y hy => this y (by simp [hy]))

theorem closed_ends {t : Text} (h : Closed t) : endsDefinition t = false := by
  simp only [endsDefinition, decide_eq_false_iff_not]
  intro e
  refine h.2 ?_
  rw [← List.head?_reverse]
  cases ht : t.reverse with
  | nil => rw [ht] at e; cases e
  | cons c r => rw [ht] at e; simp at e; simp [e.1]

/-! ### Paragraphs -/

theorem mixed_toks {l : Mixed.Line} (h : Mixed.Ordinary l) : finditer linePatterns (Mixed.write l) = l.flatMap eltToks := by
  obtain ⟨hf, c, hc, h1, h2⟩ := h
  refine toks_finditer (toks_mixed l true hf fun _ => ?_)
  rw [hc]
  exact ⟨by simpa using h1, by simpa using h2⟩

theorem st_mixed {f : Frame} {p : List Tok} {fs0 : List Frame} {l : Mixed.Line} (h : Stack w env fs0) (hw : Within fs0)
    (hb : begun fs0 = [f, rootFrame p]) (hf : f.klass = .div) (hl : Mixed.Ordinary l) {gs : List Frame}
    (hk : ∀ w1, Stack w1 env [f, rootFrame p] → Yields (w1.items env (l.flatMap eltToks)) env gs) :
    Yields (w.line env (Mixed.write l)) env gs := by
  have ht := mixed_toks hl
  have he := closed_ends (closed_line hl.1)
  obtain ⟨_, c, hc, _⟩ := hl
  cases hwl : Mixed.write l with
  | nil => rw [hwl] at hc; cases hc
  | cons d u =>
    rw [hwl] at ht he
    refine st_any h hw he ?_
    intro w1 h1
    rw [hb, prep_closed (opened_div hf (by decide) (by decide))] at h1
    rw [ht]
    exact hk w1 h1

theorem foldl_klass (now : Text) (l : Mixed.Line) (f : Frame) : (l.foldl (addElt now) f).klass = f.klass := by
  induction l generalizing f with
  | nil => rfl
  | cons e l ih => rw [List.foldl_cons, ih, addElt_klass]

theorem ordinary_ne {l : Mixed.Line} (h : Mixed.Ordinary l) : l ≠ [] := by
  rintro rfl
  obtain ⟨_, c, hc, _⟩ := h
  cases hc

theorem st_paragraph {f : Frame} {p : List Tok} {fs0 : List Frame} (ls : List Mixed.Line) (h0 : ls ≠ []) (h : Stack w env fs0) (hw : Within fs0)
    (hb : begun fs0 = [f, rootFrame p]) (hf : f.klass = .div) (hl : ∀ l ∈ ls, Mixed.Ordinary l) (hp : PicturesLast ls) (hnow : env.now ≠ []) :
    ∃ fs, Yields (w.lines env (ls.map Mixed.write)) env fs ∧ Finishes p (ls.flatten.foldl (addElt env.now) f) fs := by
  induction ls generalizing w f fs0 with
  | nil => exact absurd rfl h0
  | cons l ls ih =>
    have hl1 := hl l (by simp)
    cases ls with
    | nil =>
      simp only [PicturesLast, List.flatten_cons, List.flatten_nil, List.append_nil] at hp
      -- the last line
      have ht := mixed_toks hl1
      have he := closed_ends (closed_line hl1.1)
      rw [List.map_cons, List.map_nil, lines_one]
      have key : ∀ w1, Stack w1 env [f, rootFrame p] →
          ∃ fs, Yields (w1.items env (l.flatMap eltToks)) env fs ∧ Finishes p (l.foldl (addElt env.now) f) fs :=
        fun w1 h1 => st_last l h1 hf (fit_all hl1.1) hp hnow
      -- the stack does not depend on the state
      have hst : ∃ w1, Stack w1 env [f, rootFrame p] ∧ w.line env (Mixed.write l) = w1.items env (l.flatMap eltToks) := by
        obtain ⟨_, c, hc, _⟩ := hl1
        cases hwl : Mixed.write l with
        | nil => rw [hwl] at hc; cases hc
        | cons d u =>
          rw [hwl] at ht he
          obtain ⟨w1, e1, h1⟩ := st_begin h hw
          have h2 := st_prep (env := env) d h1 (k := fun w => .ok w) (gs := prep d (begun fs0)) fun w' h' => yields_ok h'
          obtain ⟨w2, e2, h2⟩ := h2
          rw [hb, prep_closed (opened_div hf (by decide) (by decide))] at h2
          refine ⟨w2, h2, ?_⟩
          simp only [Wiki.line, st_block h, Wiki.parseLine, he, bind, e1, Except.bind, ht] at e2 ⊢
          revert e2
          cases w1.onlyIf (d ≠ ' ') (·.leave [.blockQuote, .definitionBody]) with
          | error x => intro e2; cases e2
          | ok w3 =>
            simp only
            cases w3.onlyIf (d ≠ '>') (·.leave [.citation]) with
            | error x => intro e2; cases e2
            | ok w4 =>
              intro e2
              cases e2
              simp only [Wiki.onlyIf, Bool.false_eq_true, if_false]
              cases w2.items env (l.flatMap eltToks) <;> rfl
      obtain ⟨w1, h1, e1⟩ := hst
      rw [e1, List.flatten_cons, List.flatten_nil, List.append_nil]
      exact key w1 h1
    | cons l2 ls =>
      have hne : (l2 :: ls).flatten ≠ [] := by
        rw [List.flatten_cons]
        intro e
        exact ordinary_ne (hl l2 (by simp)) (List.append_eq_nil_iff.1 e).1
      have hp1 : (∀ e ∈ l, ¬ e.Picture) ∧ PicturesLast (l2 :: ls) := by
        unfold PicturesLast at hp ⊢
        rw [List.flatten_cons, List.dropLast_append_of_ne_nil hne] at hp
        exact ⟨fun e he => hp e (List.mem_append_left _ he), fun e he => hp e (List.mem_append_right _ he)⟩
      rw [List.map_cons, lines_cons]
      obtain ⟨w1, e1, h1⟩ := st_mixed h hw hb hf hl1 fun w1 h1 => st_elts l h1 hf (fit_all hl1.1) hp1.1 hnow
      rw [e1]
      have hk : (l.foldl (addElt env.now) f).klass = .div := (foldl_klass _ _ _).trans hf
      obtain ⟨fs, h2, h3⟩ := ih (by simp) h1 (part_within hk) rfl hk (fun x hx => hl x (by simp only [List.mem_cons] at hx ⊢; exact Or.inr hx)) hp1.2
      refine ⟨fs, h2, ?_⟩
      rw [List.flatten_cons, List.foldl_append]
      exact h3

theorem st_end {p : List Tok} {d : Frame} {fs : List Frame} (h : Stack w env fs) (he : Finishes p d fs) (hd : d.klass = .div) :
    Yields (w.line env []) env [rootFrame (p ++ element t!"div" d.inner)] := by
  rcases he with rfl | ⟨s, d', rfl, hs, hd', rfl⟩
  · exact st_blank' h hd
  · exact st_blank (gs := []) h (by simp only [opened, List.any_cons, hs]; decide) hd'

/-- What every paragraph satisfies. -/
def FitParagraph (ls : List Mixed.Line) : Prop := ls ≠ [] ∧ (∀ l ∈ ls, Mixed.Ordinary l) ∧ PicturesLast ls

theorem st_paragraphs {p : List Tok} (ps : List (List Mixed.Line)) (h : Stack w env [rootFrame p]) (hp : ∀ ls ∈ ps, FitParagraph ls)
    (hnow : env.now ≠ []) :
    Yields (w.lines env (ps.flatMap fun ls => ls.map Mixed.write ++ [[]])) env [rootFrame (p ++ Mixed.html env.now ps)] := by
  induction ps generalizing w p with
  | nil => simp only [Mixed.html, List.flatMap_nil, List.append_nil]; exact yields_ok h
  | cons ls ps ih =>
    obtain ⟨h0, h1, h2⟩ := hp ls (by simp)
    obtain ⟨fs, k1, k2⟩ := st_paragraph ls h0 h (within_root p) (begun_root p) rfl h1 h2 hnow
    rw [List.flatMap_cons, List.append_assoc, lines_append]
    refine yields_bind k1 fun w1 h3 => ?_
    rw [List.singleton_append, lines_cons]
    refine yields_bind (st_end h3 k2 ((foldl_klass _ _ _).trans rfl)) fun w2 h4 => ?_
    have := ih h4 fun x hx => hp x (by simp [hx])
    rw [addElt_inner] at this
    simpa [Mixed.html, fresh, List.append_assoc] using this

theorem mixed_lines (ps : List (List Mixed.Line)) (hp : ∀ ls ∈ ps, FitParagraph ls) :
    splitLines [] (Mixed.text ps) = ps.flatMap fun ls => ls.map Mixed.write ++ [[]] := by
  apply splitLines_lines
  intro t ht
  obtain ⟨ls, hls, ht⟩ := List.mem_flatMap.1 ht
  rcases List.mem_append.1 ht with ht | ht
  · obtain ⟨l, hl, rfl⟩ := List.mem_map.1 ht
    have := (closed_line ((hp ls hls).2.1 l hl).1).1
    exact ⟨fun h => (this _ h).1 rfl, fun h => (this _ h).2 rfl⟩
  · rw [List.mem_singleton.1 ht]; decide

theorem mixed_shown (env : Env) (ps : List (List Mixed.Line)) (hp : ∀ ls ∈ ps, FitParagraph ls) (hnow : env.now ≠ []) :
    format env (Mixed.text ps) = .ok (Mixed.html env.now ps) := by
  have h0 : Stack Wiki.start env [rootFrame []] := ⟨at_start, rfl⟩
  obtain ⟨w, e1, h1⟩ := st_paragraphs ps h0 hp hnow
  simp only [format, Wiki.parse, mixed_lines ps hp, e1, bind, Except.bind]
  rw [at_html h1.pos rfl]
  simp [rootFrame, Frame.inner, words]

/-! ### Where links lead -/

/-- The class of every link and where it leads. -/
def led (w : Wiki) : List (Option Text × Option Text) :=
  ((w.side.filterMap fun x => match x.2 with
    | .attrs l => some l
    | _ => none).map fun l => (l.lookup t!"class", l.lookup t!"href")).reverse

/-- Adds these links. -/
def Gains (p : Py Wiki) (w : Wiki) (new : List (Option Text × Option Text)) : Prop := ∀ w', p = .ok w' → led w' = led w ++ new

theorem gains_ok (w : Wiki) : Gains (.ok w) w [] := by rintro _ ⟨⟩; simp

theorem gains_bind {p : Py Wiki} {k : Wiki → Py Wiki} {a b : List (Option Text × Option Text)} (h : Gains p w a)
    (hk : ∀ w1, p = .ok w1 → Gains (k w1) w1 b) : Gains (p.bind k) w (a ++ b) := by
  intro w' e
  cases hp : p with
  | error x => rw [hp] at e; cases e
  | ok w1 =>
    rw [hp] at e
    rw [hk w1 hp w' e, h w1 hp, List.append_assoc]

theorem gains_bind0 {p : Py Wiki} {k : Wiki → Py Wiki} {b : List (Option Text × Option Text)} (h : Gains p w [])
    (hk : ∀ w1, p = .ok w1 → Gains (k w1) w1 b) : Gains (p.bind k) w b := gains_bind h hk

theorem gains_text (w : Wiki) (t : Text) : Gains (w.text t) w [] := by
  intro w' e
  unfold Wiki.text at e
  split at e
  · cases e
  · cases e; simp [led]

theorem gains_leave (w : Wiki) (ks : List Klass) : Gains (w.leave ks) w [] := by
  intro w' e
  unfold Wiki.leave at e
  split at e
  · cases e
  · cases e; simp
  · cases e; simp [led]

theorem gains_enter (w : Wiki) (k : Klass) : Gains (w.enter k) w [] := by
  intro w' e
  unfold Wiki.enter at e
  split at e
  · cases e
  · cases e; simp [led]

theorem gains_anchor (w : Wiki) (l : List (Text × Text)) :
    Gains (w.enter .anchor (some (.attrs l))) w [(l.lookup t!"class", l.lookup t!"href")] := by
  intro w' e
  unfold Wiki.enter at e
  split at e
  · cases e
  · cases e; simp [led]

theorem gains_run (w : Wiki) (os : List Op) : Gains (w.run os) w [] := by
  intro w' e
  unfold Wiki.run at e
  split at e
  · cases e
  · cases e; simp [led]

theorem gains_startIfNone (w : Wiki) (k : Klass) : Gains (w.startIfNone k) w [] := by
  intro w' e
  simp only [Wiki.startIfNone, bind, Except.bind, pure, Except.pure] at e
  cases h : w.ancestor [k] with
  | error x => rw [h] at e; cases e
  | ok o =>
    rw [h] at e
    cases o with
    | none => exact gains_enter w k w' e
    | some i => exact gains_ok w w' e

theorem gains_startOrEnd (w : Wiki) (k : Klass) : Gains (w.startOrEnd k) w [] := by
  intro w' e
  simp only [Wiki.startOrEnd, bind, Except.bind] at e
  cases h : w.ancestor [k] with
  | error x => rw [h] at e; cases e
  | ok o =>
    rw [h] at e
    cases o with
    | none => exact gains_enter w k w' e
    | some i => exact gains_leave w [k] w' e

theorem gains_onlyIf (w : Wiki) (b : Bool) (f : Wiki → Py Wiki) (h : Gains (f w) w []) : Gains (w.onlyIf b f) w [] := by
  unfold Wiki.onlyIf
  split
  · exact h
  · exact gains_ok w

theorem gains_dispatch (w : Wiki) (env : Env) (name : Text) (args : Option Text) (h : name ≠ t!"TableOfContent") :
    Gains (w.dispatch env name args) w [] := by
  have herr : ∀ x : PyErr, Gains (.error x) w [] := fun x w' e => by cases e
  unfold Wiki.dispatch
  rw [if_neg h]
  split
  · exact gains_run _ _
  · split
    · exact gains_run _ _
    · split
      · split
        · exact herr _
        · exact gains_run _ _
        · exact gains_run _ _
      · split
        · split
          · exact herr _
          · exact gains_run _ _
          · split
            · exact herr _
            · split
              · exact gains_run _ _
              · exact herr _
        · exact gains_run _ _

theorem gains_plain (w : Wiki) (env : Env) (u : Text) : Gains (w.items env (plainToks u)) w [] := by
  induction u generalizing w with
  | nil => exact gains_ok w
  | cons c u ih =>
    rw [plainToks, List.map_cons, items_cons, item_rest]
    exact gains_bind0 (gains_text w [c]) fun w1 _ => ih w1

theorem gains_style (w : Wiki) (env : Env) (p : Pat) (m : Text) (h : (∃ s, p = stylePat s) ∨ ∃ s, p = stylePat' s) (hm : m.head? ≠ some '!') :
    Gains (w.item env (p, m, [])) w [] := by
  rw [item_handle _ _ _ _ _ hm]
  rcases h with ⟨s, rfl⟩ | ⟨s, rfl⟩ <;> cases s <;>
    first
      | exact gains_startOrEnd w _
      | exact gains_enter w _
      | exact gains_leave w _

/-- The links of a line as they are found. -/
def foundOf (ts : List (Text × Text)) : List (Option Text × Option Text) := ts.map fun x => (some x.1, some x.2)

theorem gains_elt (w : Wiki) (env : Env) (e : Elt) (he : e.Fit) :
    Gains (w.items env (eltToks e)) w (foundOf (targets env.wikipath [e])) := by
  cases e with
  | plain u => exact gains_plain w env u
  | styled s u =>
    show Gains (w.items env (pieceToks (.styled s u))) w []
    have hb : s.before.head? ≠ some '!' := by cases s <;> simp [Style.before]
    have ha : s.after.head? ≠ some '!' := by cases s <;> simp [Style.after, Style.before]
    rw [pieceToks, List.cons_append, items_cons]
    refine gains_bind0 (gains_style w env _ _ (Or.inl ⟨s, rfl⟩) hb) fun w1 _ => ?_
    rw [items_append]
    refine gains_bind0 (gains_plain w1 env u) fun w2 _ => ?_
    rw [items_one]
    exact gains_style w2 env _ _ (Or.inr ⟨s, rfl⟩) ha
  | link l =>
    rw [eltToks, items_one, item_handle]
    · obtain ⟨attrs, e, h1, h2⟩ := handle_link w env l he
      rw [e]
      have hx : foundOf (targets env.wikipath [.link l]) = [(attrs.lookup t!"class", attrs.lookup t!"href")] := by
        simp [foundOf, targets, h1, h2]
      rw [hx]
      split
      · refine gains_bind (b := []) (gains_anchor w attrs) fun w1 _ => ?_
        refine gains_bind0 (gains_enter w1 .span) fun w2 _ => ?_
        refine gains_bind0 (gains_text w2 _) fun w3 _ => ?_
        exact gains_bind0 (gains_leave w3 _) fun w4 _ => gains_leave w4 _
      · refine gains_bind (b := []) (gains_anchor w attrs) fun w1 _ => ?_
        exact gains_bind0 (gains_text w1 _) fun w2 _ => gains_leave w2 _
    · obtain ⟨c, d, r, e, hc, _⟩ := link_head (t := []) l he
      rw [e]; simpa using hc
  | escaped l =>
    rw [eltToks, items_one]
    have : linkPat l ≠ .rest := by cases l <;> simp [linkPat]
    simp only [Wiki.item, List.head?_cons, this, ne_eq, not_false_eq_true, and_self, if_true]
    exact gains_text w _
  | escapedMark s =>
    rw [eltToks, items_one]
    have : stylePat s ≠ .rest := by cases s <;> simp [stylePat]
    simp only [Wiki.item, List.head?_cons, this, ne_eq, not_false_eq_true, and_self, if_true]
    exact gains_text w _
  | «macro» name args =>
    rw [eltToks, items_one, item_handle _ _ _ _ _ (by simp [macroWrite])]
    have e : w.handle env .macro (macroWrite name args) (macroGroups name args) = w.dispatch env name args := by
      cases args <;> simp [Wiki.handle, macroGroups, groupOf]
    rw [e]
    exact gains_dispatch w env name args he.2.2.1
  | special c =>
    rw [eltToks, items_one, item_handle _ _ _ _ _ (by rcases he with rfl | rfl | rfl | rfl <;> simp)]
    exact gains_text w _

theorem targets_cons (path : Text) (e : Elt) (l : Mixed.Line) : targets path (e :: l) = targets path [e] ++ targets path l := by
  simp [targets]

theorem gains_elts (w : Wiki) (env : Env) (l : Mixed.Line) (he : ∀ e ∈ l, e.Fit) :
    Gains (w.items env (l.flatMap eltToks)) w (foundOf (targets env.wikipath l)) := by
  induction l generalizing w with
  | nil => exact gains_ok w
  | cons e l ih =>
    rw [List.flatMap_cons, items_append, targets_cons, foundOf, List.map_append]
    exact gains_bind (gains_elt w env e (he e (by simp))) fun w1 _ => ih w1 fun x hx => he x (by simp [hx])

theorem gains_line {l : Mixed.Line} (hb : w.block = none) (hl : Mixed.Ordinary l) :
    Gains (w.line env (Mixed.write l)) w (foundOf (targets env.wikipath l)) := by
  have ht := mixed_toks hl
  have he := closed_ends (closed_line hl.1)
  have hf := fit_all hl.1
  obtain ⟨_, c, hc, _⟩ := hl
  cases hwl : Mixed.write l with
  | nil => rw [hwl] at hc; cases hc
  | cons d u =>
    rw [hwl] at ht he
    simp only [Wiki.line, hb, Wiki.parseLine, he, bind, ht]
    refine gains_bind0 (gains_startIfNone w .div) fun w1 _ => ?_
    refine gains_bind0 (gains_onlyIf w1 _ _ (gains_leave w1 _)) fun w2 _ => ?_
    refine gains_bind0 (gains_onlyIf w2 _ _ (gains_leave w2 _)) fun w3 _ => ?_
    refine gains_bind0 (gains_ok w3) fun w4 _ => ?_
    have := gains_bind (b := []) (gains_elts w4 env l hf) (k := fun w => w.onlyIf false (·.endDefinition)) fun w5 _ => gains_ok w5
    rw [List.append_nil] at this
    exact this

theorem gains_empty (hb : w.block = none) : Gains (w.line env []) w [] := by
  simp only [Wiki.line, hb, Wiki.parseLine, bind]
  refine gains_bind0 (gains_leave w _) fun w1 _ => ?_
  rintro _ ⟨⟩
  simp [led]

theorem gains_paragraph {f : Frame} {p : List Tok} {fs0 : List Frame} (ls : List Mixed.Line) (h : Stack w env fs0) (hw : Within fs0)
    (hb : begun fs0 = [f, rootFrame p]) (hf : f.klass = .div) (hl : ∀ l ∈ ls, Mixed.Ordinary l) (hp : PicturesLast ls) (hnow : env.now ≠ []) :
    Gains (w.lines env (ls.map Mixed.write)) w (foundOf (ls.flatMap (targets env.wikipath))) := by
  induction ls generalizing w f fs0 with
  | nil => exact gains_ok w
  | cons l ls ih =>
    have hl1 := hl l (by simp)
    rw [List.map_cons, lines_cons, List.flatMap_cons, foundOf, List.map_append]
    refine gains_bind (gains_line (st_block h) hl1) fun w1 e1 => ?_
    cases ls with
    | nil => exact gains_ok w1
    | cons l2 ls =>
      have hne : (l2 :: ls).flatten ≠ [] := by
        rw [List.flatten_cons]
        intro e
        exact ordinary_ne (hl l2 (by simp)) (List.append_eq_nil_iff.1 e).1
      have hp1 : (∀ e ∈ l, ¬ e.Picture) ∧ PicturesLast (l2 :: ls) := by
        unfold PicturesLast at hp ⊢
        rw [List.flatten_cons, List.dropLast_append_of_ne_nil hne] at hp
        exact ⟨fun e he => hp e (List.mem_append_left _ he), fun e he => hp e (List.mem_append_right _ he)⟩
      obtain ⟨w1', e1', h1⟩ := st_mixed h hw hb hf hl1 fun w1 h1 => st_elts l h1 hf (fit_all hl1.1) hp1.1 hnow
      cases e1.symm.trans e1'
      have hk : (l.foldl (addElt env.now) f).klass = .div := (foldl_klass _ _ _).trans hf
      exact ih h1 (part_within hk) rfl hk (fun x hx => hl x (by simp only [List.mem_cons] at hx ⊢; exact Or.inr hx)) hp1.2

theorem gains_paragraphs {p : List Tok} (ps : List (List Mixed.Line)) (h : Stack w env [rootFrame p]) (hp : ∀ ls ∈ ps, FitParagraph ls)
    (hnow : env.now ≠ []) :
    Gains (w.lines env (ps.flatMap fun ls => ls.map Mixed.write ++ [[]])) w (foundOf (ps.flatMap fun ls => ls.flatMap (targets env.wikipath))) := by
  induction ps generalizing w p with
  | nil => exact gains_ok w
  | cons ls ps ih =>
    obtain ⟨h0, h1, h2⟩ := hp ls (by simp)
    obtain ⟨fs, ⟨w1, e1, k1⟩, k2⟩ := st_paragraph ls h0 h (within_root p) (begun_root p) rfl h1 h2 hnow
    obtain ⟨w2, e2, k3⟩ := st_end k1 k2 ((foldl_klass _ _ _).trans rfl)
    rw [List.flatMap_cons, List.append_assoc, lines_append, List.flatMap_cons, foundOf, List.map_append]
    refine gains_bind (gains_paragraph ls h (within_root p) (begun_root p) rfl h1 h2 hnow) fun w1' e1' => ?_
    cases e1'.symm.trans e1
    rw [List.singleton_append, lines_cons]
    refine gains_bind0 (gains_empty (st_block k1)) fun w2' e2' => ?_
    cases e2'.symm.trans e2
    exact ih k3 fun x hx => hp x (by simp [hx])

theorem mixed_led (env : Env) (ps : List (List Mixed.Line)) (hp : ∀ ls ∈ ps, FitParagraph ls) (hnow : env.now ≠ []) :
    ∃ w, Wiki.start.parse env (Mixed.text ps) = .ok w ∧ led w = foundOf (ps.flatMap fun ls => ls.flatMap (targets env.wikipath)) := by
  have h0 : Stack Wiki.start env [rootFrame []] := ⟨at_start, rfl⟩
  obtain ⟨w, e1, h1⟩ := st_paragraphs ps h0 hp hnow
  refine ⟨w, by simp only [Wiki.parse, mixed_lines ps hp, e1], ?_⟩
  exact gains_paragraphs ps h0 hp hnow w e1

end Bglib.Doc
