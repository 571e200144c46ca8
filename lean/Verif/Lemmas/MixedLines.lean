import Verif.Lemmas.MixedTokens
import Verif.Lemmas.DocCode
/-
What links, macros and special characters do to the stack of open elements.
-/
namespace Bglib.Doc
open Spec Spec.Mixed
open Spec.Document (Style words element)

variable {w w' : Wiki} {env : Env}

/-! ### Elements with text -/

/-- An element with text inside it. -/
def boxed (f : Frame) (k : Klass) (b : List Tok) : Frame := { f with pre := f.inner ++ openToks k ++ b ++ closeToks k, tail := [] }

theorem shut_boxed (f : Frame) (k : Klass) (x : Option Extra) (t : Text) (p : List Tok) :
    shut ⟨k, x, p, t⟩ f.under = boxed f k (p ++ words t) := by
  simp [shut, boxed, Frame.under, Frame.toks, Frame.inner]

theorem attrs_good (k : Klass) (x : Option (List (Text × Text))) (h1 : k ≠ .text) (h2 : k ≠ .list none) :
    (⟨k, x.map .attrs, [], []⟩ : Frame).good := by
  cases x with
  | none => exact ⟨h1, h2, Or.inl rfl⟩
  | some l => exact ⟨h1, h2, Or.inr (Or.inr ⟨l, rfl⟩)⟩

theorem bind_eq {α β : Type} (p : Py α) (k : α → Py β) : (p >>= k) = p.bind k := rfl

theorem isA_self (k : Klass) : k.isA k = true := by simp [Klass.isA, Klass.isA.go]

theorem st_box {f : Frame} {fs : List Frame} {k : Klass} {t : Text} (h : Stack w env (f :: fs)) (hk : f.klass.accepts k = true)
    (hr : k ≠ .root) (h1 : k ≠ .text) (h2 : k ≠ .list none) (hroot : Klass.root.isA k = false) (ht : t ≠ []) (x : Option (List (Text × Text))) :
    Yields ((w.enter k (x.map .attrs)).bind fun w => (w.text t).bind fun w => w.leave [k]) env (boxed f k (words t) :: fs) := by
  refine yields_bind (st_enter h hk hr (attrs_good k x h1 h2)) fun w1 h1 => ?_
  refine yields_bind (st_text h1 ht) fun w2 h2 => ?_
  have := st_leave [k] h2 (by simp [hroot])
  rw [leaveZ_self (by simp [isA_self]), shut_boxed] at this
  exact this

theorem run_nil (w : Wiki) : w.run [] = .ok w := rfl

theorem run_cell (w : Wiki) (k : Klass) (t : Text) :
    w.run (cell k t) = (w.enter k).bind fun w => (w.text t).bind fun w => w.leave [k] := by
  simp only [Wiki.run, cell, Editor.run, Editor.apply, Wiki.enter, Editor.enter]
  cases w.doc.append k with
  | error e => rfl
  | ok x =>
    simp only [Except.bind, Wiki.text]
    cases Editor.appendText { x.1 with current := some x.2 } t with
    | error e => rfl
    | ok d =>
      simp only [Wiki.leave, Editor.leave, List.any_cons, List.any_nil, Bool.or_false]
      cases d.climb (fun n => n.klass.isA k) (d.nodes.length + 1) d.current with
      | error e => rfl
      | ok i => cases i <;> rfl

theorem run_br (w : Wiki) : w.run [.enter .br, .leave .br] = (w.enter .br).bind fun w => w.leave [.br] := by
  simp only [Wiki.run, Editor.run, Editor.apply, Wiki.enter, Editor.enter]
  cases w.doc.append .br with
  | error e => rfl
  | ok x =>
    simp only [Except.bind, Wiki.leave, Editor.leave, List.any_cons, List.any_nil, Bool.or_false]
    cases Editor.climb { x.1 with current := some x.2 } (fun n => n.klass.isA .br) (x.1.nodes.length + 1) (some x.2) with
    | error e => rfl
    | ok i => cases i <;> rfl

theorem run_picture (w : Wiki) : w.run [.enter .span, .enter .img, .leave .span] =
    (w.enter .span).bind fun w => (w.enter .img).bind fun w => w.leave [.span] := by
  simp only [Wiki.run, Editor.run, Editor.apply, Wiki.enter, Editor.enter]
  cases w.doc.append .span with
  | error e => rfl
  | ok x =>
    simp only [Except.bind]
    cases Editor.append { x.1 with current := some x.2 } .img with
    | error e => rfl
    | ok y =>
      simp only [Wiki.leave, Editor.leave, List.any_cons, List.any_nil, Bool.or_false]
      cases Editor.climb { y.1 with current := some y.2 } (fun n => n.klass.isA .span) (y.1.nodes.length + 1) (some y.2) with
      | error e => rfl
      | ok i => cases i <;> rfl

/-! ### Links -/

theorem escape_url (secure : Bool) (rest : Text) (h : Filled urlChar rest) (ha : '&' ∉ rest) : escape (url secure rest) = url secure rest := by
  have hs : ∀ a : Text, (∀ c ∈ a, c ≠ '<' ∧ c ≠ '>' ∧ c ≠ '&') → escape a = a := by
    intro a h
    unfold escape
    induction a with
    | nil => rfl
    | cons c a ih =>
      obtain ⟨h1, h2, h3⟩ := h c (by simp)
      rw [List.flatMap_cons, ih fun d hd => h d (by simp [hd])]
      simp [escapeChar, h1, h2, h3]
  apply hs
  intro c hc
  rw [url] at hc
  rcases List.mem_append.1 hc with hc | hc
  · have : ∀ b : Bool, ∀ c ∈ t!"http" ++ (if b then t!"s" else []) ++ t!"://", c ≠ '<' ∧ c ≠ '>' ∧ c ≠ '&' := by decide
    exact this secure c hc
  · have := List.all_eq_true.1 h.2 c hc
    refine ⟨?_, ?_, ?_⟩
    · rintro rfl; exact absurd this (by decide)
    · rintro rfl; exact absurd this (by decide)
    · rintro rfl; exact ha hc

/-- Links to the web. -/
def isWeb : Link → Bool
  | .web _ _ | .named _ _ _ => true
  | _ => false

theorem handle_link (w : Wiki) (env : Env) (l : Link) (h : l.Fit) :
    ∃ attrs, w.handle env (linkPat l) l.write (linkGroups l) = (if isWeb l then w.extLink attrs l.text else w.link attrs l.text) ∧
      attrs.lookup t!"class" = some (l.target env.wikipath).1 ∧ attrs.lookup t!"href" = some (l.target env.wikipath).2 := by
  cases l with
  | entry long n =>
    refine ⟨entryAttrs (Link.write (.entry long n)), rfl, by simp [entryAttrs, Link.target, List.lookup], ?_⟩
    cases long <;> simp [entryAttrs, Link.target, List.lookup, Link.write]
  | query long n =>
    refine ⟨queryAttrs (Link.write (.query long n)), rfl, by simp [queryAttrs, Link.target, List.lookup], ?_⟩
    cases long <;> simp [queryAttrs, Link.target, List.lookup, Link.write, inner]
  | game form n =>
    refine ⟨matchAttrs (Link.write (.game form n)), ?_, by simp [matchAttrs, Link.target, List.lookup], ?_⟩
    · clear h; revert form; exact fin3 rfl rfl rfl
    · obtain ⟨h0, hd⟩ := h
      revert form
      refine fin3 ?_ ?_ ?_
      · cases n with
        | nil => exact absurd rfl h0
        | cons d n =>
          rw [List.all_cons, Bool.and_eq_true] at hd
          have : d ≠ 'a' := digit_ne hd.1 (by decide)
          simp [matchAttrs, Link.target, List.lookup, Link.write, this]
      · simp [matchAttrs, Link.target, List.lookup, Link.write]
      · simp [matchAttrs, Link.target, List.lookup, Link.write, inner]
  | page name =>
    have e : inner (Link.write (.page name)) 6 = name := by simp [Link.write, inner]
    refine ⟨[(t!"class", t!"wiki-link"), (t!"title", inner (Link.write (.page name)) 6), (t!"href", env.wikipath ++ inner (Link.write (.page name)) 6)], ?_, rfl, ?_⟩
    · simp only [linkPat, Wiki.handle, isWeb, Link.text, e]; rfl
    · simp [Link.target, List.lookup, e]
  | camel parts => exact ⟨[(t!"class", t!"wiki-link"), (t!"title", Link.write (.camel parts)), (t!"href", env.wikipath ++ Link.write (.camel parts))], rfl, rfl,
      by simp [Link.target, List.lookup, Link.write]⟩
  | web secure rest =>
    exact ⟨[(t!"class", t!"ext-link"), (t!"title", t!"title"), (t!"href", escape (Link.write (.web secure rest)))], rfl, rfl,
      by simp [Link.target, List.lookup, Link.write, escape_url secure rest h.1 h.2]⟩
  | named secure rest d =>
    cases d with
    | none =>
      refine ⟨[(t!"class", t!"ext-link"), (t!"title", url secure rest), (t!"href", url secure rest)], ?_, rfl, rfl⟩
      simp [linkPat, Wiki.handle, Wiki.schemeUrl, linkGroups, groupOf, isWeb, Link.text, escape_url secure rest h.1 h.2]
    | some d =>
      refine ⟨[(t!"class", t!"ext-link"), (t!"title", escape d), (t!"href", url secure rest)], ?_, rfl, rfl⟩
      simp [linkPat, Wiki.handle, Wiki.schemeUrl, linkGroups, groupOf, isWeb, Link.text, escape_url secure rest h.1.1 h.1.2]

theorem escape_ne {t : Text} (h : t ≠ []) : escape t ≠ [] := by
  cases t with
  | nil => exact absurd rfl h
  | cons c t =>
    rw [escape, List.flatMap_cons]
    unfold escapeChar
    split
    · simp
    · split
      · simp
      · split <;> simp

theorem write_link_ne {l : Link} (h : l.Fit) : l.write ≠ [] := by
  obtain ⟨c, d, r, e, _⟩ := link_head (t := []) l h
  rw [e]; simp

theorem text_ne {l : Link} (h : l.Fit) : l.text ≠ [] := by
  cases l with
  | page name => exact h.1
  | named secure rest d =>
    cases d with
    | none => simp [Link.text, url]
    | some d => exact escape_ne h.2.1
  | entry _ _ => exact write_link_ne h
  | query _ _ => exact write_link_ne h
  | game _ _ => exact write_link_ne h
  | camel _ => exact write_link_ne h
  | web _ _ => exact write_link_ne h

/-- What a part of a line adds. -/
def addElt (now : Text) (f : Frame) (e : Elt) : Frame := match e.inText with
  | some u => { f with tail := f.tail ++ u }
  | none => { f with pre := f.inner ++ e.html now, tail := [] }

theorem st_link {f : Frame} {fs : List Frame} {l : Link} (h : Stack w env (f :: fs)) (hf : f.klass = .div) (hl : l.Fit) :
    Yields (w.handle env (linkPat l) l.write (linkGroups l)) env ({ f with pre := f.inner ++ l.html, tail := [] } :: fs) := by
  obtain ⟨attrs, e, _, _⟩ := handle_link w env l hl
  rw [e]
  cases hw : isWeb l with
  | false =>
    have := st_box (k := .anchor) h (by rw [hf]; rfl) (by simp) (by simp) (by simp) (by decide) (text_ne hl) (some attrs)
    have e : boxed f .anchor (words l.text) = { f with pre := f.inner ++ l.html, tail := [] } := by
      have : l.html = element t!"a" (words l.text) := by
        cases l <;> first | rfl | (simp [isWeb] at hw)
      rw [this]
      simp [boxed, element, openToks, closeToks, Node.opens, Node.closes, Klass.tag]
    rw [e] at this
    exact this
  | true =>
    show Yields ((w.enter .anchor (some (.attrs attrs))).bind fun w => (w.enter .span).bind fun w => (w.text l.text).bind fun w =>
      (w.leave [.span]).bind fun w => w.leave [.anchor]) env _
    refine yields_bind (st_enter h (by rw [hf]; rfl) (by simp) (attrs_good .anchor (some attrs) (by simp) (by simp))) fun w1 h1 => ?_
    have h2 := st_box (k := .span) h1 rfl (by simp) (by simp) (by simp) (by decide) (text_ne hl) none
    obtain ⟨w2, e2, h2⟩ := h2
    have e3 : ((w1.enter .span).bind fun w => (w.text l.text).bind fun w => (w.leave [.span]).bind fun w => w.leave [.anchor]) = w2.leave [.anchor] := by
      have : ∀ (p : Py Wiki) (a b : Wiki → Py Wiki) (c : Wiki → Py Wiki), (p.bind fun w => (a w).bind fun w => (b w).bind c) =
          (p.bind fun w => (a w).bind b).bind c := by
        intro p a b c
        cases p with
        | error e => rfl
        | ok w => simp only [Except.bind]; cases a w <;> rfl
      rw [this]
      rw [show (Option.map Extra.attrs none) = none from rfl] at e2
      rw [e2]
      rfl
    rw [e3]
    have h3 := st_leave [.anchor] h2 (by decide)
    rw [leaveZ_self (by rfl)] at h3
    have e : shut (boxed ⟨.anchor, (some attrs).map .attrs, [], []⟩ .span (words l.text)) f.under = { f with pre := f.inner ++ l.html, tail := [] } := by
      have : l.html = element t!"a" (element t!"span" (words l.text)) := by
        cases l <;> first | rfl | (simp [isWeb] at hw)
      rw [this]
      simp [boxed, shut, Frame.under, Frame.toks, Frame.inner, element, openToks, closeToks, Node.opens, Node.closes, Klass.tag, words]
    exact e ▸ h3

/-! ### Macros -/

theorem wordly_escape {t : Text} (h : t.all wordly = true) : escape t = t := by
  unfold escape
  induction t with
  | nil => rfl
  | cons c t ih =>
    rw [List.all_cons, Bool.and_eq_true] at h
    rw [List.flatMap_cons, ih h.2]
    have : c ≠ '<' ∧ c ≠ '>' ∧ c ≠ '&' := by
      refine ⟨?_, ?_, ?_⟩ <;> (rintro rfl; exact absurd h.1 (by decide))
    simp [escapeChar, this]

theorem quoted_eq {args : Option Text} (h : ∀ a, args = some a → Filled argument a) : escape (orNone args) = quoted args := by
  cases args with
  | none => decide
  | some a =>
    have := (h a rfl).1
    cases a with
    | nil => exact absurd rfl this
    | cons c a => rfl

theorem position_none {a : Text} (h : ¬ HasId a) : parsePosition (some a) = .ok none := by
  simp only [parsePosition]
  exact if_neg fun hh => h ((hasId_iff a).1 hh)

theorem st_span {f : Frame} {fs : List Frame} {t : Text} (h : Stack w env (f :: fs)) (hf : f.klass = .div) (ht : t ≠ []) :
    Yields (w.run (cell .span t)) env ({ f with pre := f.inner ++ element t!"span" (words t), tail := [] } :: fs) := by
  have := st_box (k := .span) h (by rw [hf]; rfl) (by simp) (by simp) (by simp) (by decide) ht none
  rw [run_cell]
  simpa [boxed, element, openToks, closeToks, Node.opens, Node.closes, Klass.tag] using this

theorem st_macro {f : Frame} {fs : List Frame} {name : Text} {args : Option Text} (h : Stack w env (f :: fs)) (hf : f.klass = .div)
    (hm : MacroFit name args) (hp : ¬ IsPosition name args) (hnow : env.now ≠ []) :
    Yields (w.dispatch env name args) env ({ f with pre := f.inner ++ macroHtml env.now name args, tail := [] } :: fs) := by
  obtain ⟨hn, ha, htoc, hpos, han⟩ := hm
  unfold Wiki.dispatch macroHtml
  by_cases h1 : name = t!"BR"
  · rw [if_pos h1, if_pos h1, run_br]
    refine yields_bind (st_enter (k := .br) (x := none) h (by rw [hf]; rfl) (by simp) (fresh_good _ (by simp) (by simp))) fun w1 k1 => ?_
    have := st_leave [.br] k1 (by decide)
    rw [leaveZ_self (by rfl), shut_boxed] at this
    show ∃ w', _ ∧ _
    simpa [boxed, words, openToks, closeToks, Node.opens, Node.closes, Klass.tag] using this
  · rw [if_neg h1, if_neg h1]
    by_cases h2 : name = t!"Timestamp"
    · rw [if_pos h2, if_pos h2]
      have := st_box (k := .bold) h (by rw [hf]; rfl) (by simp) (by simp) (by simp) (by decide) hnow none
      rw [run_cell]
      simpa [boxed, element, openToks, closeToks, Node.opens, Node.closes, Klass.tag] using this
    · rw [if_neg h2, if_neg h2, if_neg htoc, if_neg hp]
      by_cases h3 : name = t!"Position"
      · rw [if_pos h3, if_pos (Or.inl h3)]
        cases args with
        | none => exact absurd rfl (hpos h3)
        | some a =>
          rw [position_none (a := a) fun hid => hp ⟨h3, hid⟩]
          have := st_span (t := t!"Bad args \"" ++ escape (orNone (some a)) ++ t!"\" for " ++ name ++ t!"\n") h hf (by simp)
          rw [quoted_eq ha] at this
          simp only [badArgs]
          rw [quoted_eq ha]
          exact this
      · rw [if_neg h3]
        by_cases h4 : name = t!"Analysis"
        · rw [if_pos h4, if_pos (Or.inr h4)]
          obtain ⟨a, rfl, hid⟩ := han h4
          rw [position_none hid]
          simp only [badArgs]
          rw [quoted_eq ha]
          exact st_span h hf (by simp)
        · rw [if_neg h4, if_neg (by simp [h3, h4])]
          simp only [badName]
          rw [quoted_eq ha, wordly_escape hn.2]
          exact st_span h hf (by simp)

/-! ### Lines -/

theorem items_one (w : Wiki) (env : Env) (x : LineToken) : w.items env [x] = w.item env x := by
  rw [items_cons]; cases w.item env x <;> rfl

theorem st_elt {f : Frame} {p : List Tok} {e : Elt} (h : Stack w env [f, rootFrame p]) (hf : f.klass = .div)
    (he : e.Fit) (hp : ¬ e.Picture) (hnow : env.now ≠ []) :
    Yields (w.items env (eltToks e)) env [addElt env.now f e, rootFrame p] := by
  cases e with
  | plain u => exact st_plain u h
  | styled s u => exact st_style s u h (open_div hf)
  | link l =>
    rw [eltToks, items_one, item_handle]
    · exact st_link h hf he
    · obtain ⟨c, d, r, e, hc, _⟩ := link_head (t := []) l he
      rw [e]; simpa using hc
  | escaped l =>
    rw [eltToks, items_one]
    have e : w.item env (linkPat l, '!' :: l.write, linkGroups l) = w.text (escape l.write) := by
      have : linkPat l ≠ .rest := by cases l <;> simp [linkPat]
      simp [Wiki.item, this]
    rw [e]
    exact st_text h (escape_ne (write_link_ne he))
  | escapedMark s =>
    rw [eltToks, items_one]
    have e : w.item env (stylePat s, '!' :: s.before, []) = w.text s.before := by
      have : stylePat s ≠ .rest := by cases s <;> simp [stylePat]
      have e : escape s.before = s.before := by cases s <;> decide
      simp [Wiki.item, this, e]
    rw [e]
    exact st_text h (before_ne s)
  | «macro» name args =>
    rw [eltToks, items_one, item_handle _ _ _ _ _ (by simp [macroWrite])]
    have e : w.handle env .macro (macroWrite name args) (macroGroups name args) = w.dispatch env name args := by
      cases args <;> simp [Wiki.handle, macroGroups, groupOf]
    rw [e]
    exact st_macro h hf he hp hnow
  | special c =>
    rw [eltToks, items_one, item_handle _ _ _ _ _ (by rcases he with rfl | rfl | rfl | rfl <;> simp)]
    exact st_text h (escape_ne (by simp))

theorem addElt_klass (now : Text) (f : Frame) (e : Elt) : (addElt now f e).klass = f.klass := by
  unfold addElt; split <;> rfl

theorem st_elts {f : Frame} {p : List Tok} (l : Mixed.Line) (h : Stack w env [f, rootFrame p]) (hf : f.klass = .div)
    (he : ∀ e ∈ l, e.Fit) (hp : ∀ e ∈ l, ¬ e.Picture) (hnow : env.now ≠ []) :
    Yields (w.items env (l.flatMap eltToks)) env [l.foldl (addElt env.now) f, rootFrame p] := by
  induction l generalizing w f with
  | nil => exact yields_ok h
  | cons e l ih =>
    rw [List.flatMap_cons, items_append, List.foldl_cons]
    refine yields_bind (st_elt h hf (he e (by simp)) (hp e (by simp)) hnow) fun w1 h1 => ?_
    exact ih h1 ((addElt_klass _ _ _).trans hf) (fun x hx => he x (by simp [hx])) fun x hx => hp x (by simp [hx])

/-- A paragraph `d`, perhaps with a picture not closed. -/
def Finishes (p : List Tok) (d : Frame) (fs : List Frame) : Prop :=
  fs = [d, rootFrame p] ∨ ∃ s d', fs = [s, d', rootFrame p] ∧ s.klass = .span ∧ d'.klass = .div ∧ shut s d' = d

theorem st_last {f : Frame} {p : List Tok} (l : Mixed.Line) (h : Stack w env [f, rootFrame p]) (hf : f.klass = .div)
    (he : ∀ e ∈ l, e.Fit) (hp : ∀ e ∈ l.dropLast, ¬ e.Picture) (hnow : env.now ≠ []) :
    ∃ fs, Yields (w.items env (l.flatMap eltToks)) env fs ∧ Finishes p (l.foldl (addElt env.now) f) fs := by
  by_cases hl : ∀ e ∈ l, ¬ e.Picture
  · exact ⟨_, st_elts l h hf he hl hnow, Or.inl rfl⟩
  · rcases List.eq_nil_or_concat l with rfl | ⟨l', e, rfl⟩
    · exact absurd (by simp) hl
    · rw [List.concat_eq_append] at *
      have hp' : ∀ x ∈ l', ¬ x.Picture := by simpa using hp
      have he' : e.Picture := by
        apply Classical.byContradiction
        intro hn
        apply hl
        intro x hx
        rcases List.mem_append.1 hx with hx | hx
        · exact hp' x hx
        · rw [List.mem_singleton.1 hx]; exact hn
      obtain ⟨w1, e1, h1⟩ := st_elts l' h hf (fun x hx => he x (by simp [hx])) hp' hnow
      have hk : (l'.foldl (addElt env.now) f).klass = .div := by
        have : ∀ (l : Mixed.Line) (f : Frame), (l.foldl (addElt env.now) f).klass = f.klass := by
          intro l
          induction l with
          | nil => intro f; rfl
          | cons e l ih => intro f; rw [List.foldl_cons, ih, addElt_klass]
        rw [this, hf]
      rw [List.flatMap_append, items_append, e1, List.foldl_append]
      cases e with
      | «macro» name args =>
        obtain ⟨hn, hid⟩ := he'
        have ef : w1.items env ([Elt.macro name args].flatMap eltToks) =
            (w1.enter .span).bind fun w => (w.enter .img).bind fun w => w.leave [.span] := by
          rw [show [Elt.macro name args].flatMap eltToks = [(Pat.macro, macroWrite name args, macroGroups name args)] from rfl, items_one,
            item_handle _ _ _ _ _ (by simp [macroWrite])]
          have e : w1.handle env .macro (macroWrite name args) (macroGroups name args) = w1.dispatch env name args := by
            cases args <;> simp [Wiki.handle, macroGroups, groupOf]
          rw [e, ← run_picture]
          cases args with
          | none => exact absurd hid (by decide)
          | some a =>
            have hh : 27 ≤ a.length ∧ (a.take 14).all base64 = true ∧ a[14]? = some ':' ∧ ((a.drop 15).take 12).all base64 = true := by
              exact (hasId_iff a).2 hid
            have e : parsePosition (some a) = .ok (some (a.take 14, (a.drop 15).take 12)) := by
              simp only [parsePosition]
              exact if_pos hh
            simp [Wiki.dispatch, hn, e]
        refine ⟨_, ?_, Or.inr ⟨boxed (fresh .span) .img [], (l'.foldl (addElt env.now) f).under, rfl, rfl, hk, ?_⟩⟩
        · show Yields (w1.items env ([Elt.macro name args].flatMap eltToks)) env _
          rw [ef]
          refine yields_bind (st_enter (k := .span) (x := none) h1 (by rw [hk]; rfl) (by simp) (fresh_good _ (by simp) (by simp))) fun w2 h2 => ?_
          refine yields_bind (st_enter (k := .img) (x := none) h2 rfl (by simp) (fresh_good _ (by simp) (by simp))) fun w3 h3 => ?_
          have := st_leave [.span] h3 (by decide)
          rw [leaveZ_self (by rfl), shut_boxed] at this
          exact this
        · have hpos : IsPosition name args := ⟨hn, hid⟩
          have e : macroHtml env.now name args = element t!"span" [.single t!"img"] := by
            unfold macroHtml
            rw [if_neg (by rw [hn]; simp), if_neg (by rw [hn]; simp), if_pos hpos]
          simp [List.foldl_cons, addElt, Elt.inText, Elt.html, e, shut, boxed, fresh, Frame.under, Frame.toks, Frame.inner, words, element,
            openToks, closeToks, Node.opens, Node.closes, Klass.tag]
      | _ => exact False.elim he'

theorem addElt_inner (now : Text) (l : Mixed.Line) (f : Frame) : (l.foldl (addElt now) f).inner = f.pre ++ Mixed.flow now f.tail l := by
  induction l generalizing f with
  | nil => rfl
  | cons e l ih =>
    rw [List.foldl_cons, ih]
    conv => rhs; unfold Mixed.flow
    unfold addElt
    cases e.inText with
    | some u => rfl
    | none => simp [Frame.inner]

end Bglib.Doc
