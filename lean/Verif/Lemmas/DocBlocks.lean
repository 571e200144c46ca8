import Verif.Lemmas.DocLines
/-
What whole lines do to the stack of open elements: paragraphs, headings, quotations, citations, tables and terms.
-/
namespace Bglib.Doc
open Spec.Document

variable {w w' : Wiki} {env : Env}

/-- Ends without an exception at a stack. -/
def Yields (p : Py Wiki) (env : Env) (fs : List Frame) : Prop := ∃ w', p = .ok w' ∧ Stack w' env fs

theorem yields_ok {fs : List Frame} (h : Stack w env fs) : Yields (.ok w) env fs := ⟨w, rfl, h⟩

theorem yields_bind {p : Py Wiki} {k : Wiki → Py Wiki} {fs gs : List Frame} (h : Yields p env fs)
    (hk : ∀ w', Stack w' env fs → Yields (k w') env gs) : Yields (p.bind k) env gs := by
  obtain ⟨w1, e, h1⟩ := h
  rw [e]
  exact hk w1 h1

/-! ### Lines -/

theorem lines_append (w : Wiki) (env : Env) (xs ys : List Text) : w.lines env (xs ++ ys) = (w.lines env xs).bind (·.lines env ys) := by
  induction xs generalizing w with
  | nil => rfl
  | cons x xs ih =>
    simp only [List.cons_append, Wiki.lines, bind]
    cases w.line env x with
    | error e => rfl
    | ok w' => exact ih w'

theorem lines_cons (w : Wiki) (env : Env) (x : Text) (xs : List Text) : w.lines env (x :: xs) = (w.line env x).bind (·.lines env xs) := rfl

theorem lines_one (w : Wiki) (env : Env) (x : Text) : w.lines env [x] = w.line env x := by
  rw [lines_cons]
  cases w.line env x <;> rfl

theorem st_block {fs : List Frame} (h : Stack w env fs) : w.block = none := by
  cases fs with
  | nil => exact False.elim h.pos
  | cons f fs =>
    obtain ⟨⟨c, hc, hf, n, hn, hk, hx, _⟩, _⟩ := h.pos
    simp only [Wiki.block, hc, hx]
    rcases hf.2.2 with e | e | ⟨l, e⟩ <;> rw [e]

theorem st_there {fs : List Frame} {k : Klass} (h : Stack w env fs) (ho : opened [k] fs = true) : Yields (w.startIfNone k) env fs :=
  ⟨w, at_startIfNone_there h.pos ho, h⟩

/-- What a line leaves before it is taken apart. -/
def prep (c : Char) (fs : List Frame) : List Frame :=
  let gs := if c ≠ ' ' then leaveZ [.blockQuote, .definitionBody] fs else fs
  if c ≠ '>' then leaveZ [.citation] gs else gs

theorem prep_closed {c : Char} {fs : List Frame} (h : opened [.blockQuote, .definitionBody, .citation] fs = false) : prep c fs = fs := by
  have h1 : opened [.blockQuote, .definitionBody] fs = false ∧ opened [.citation] fs = false := by
    simp only [opened, List.any_eq_false] at h ⊢
    constructor <;> intro f hf <;> have := h f hf <;> simp_all
  simp only [prep]
  rw [leaveZ_closed h1.1]
  simp only [ite_self]
  rw [leaveZ_closed h1.2, ite_self]

theorem st_prep {fs : List Frame} (c : Char) (h : Stack w env fs) {k : Wiki → Py Wiki} {gs : List Frame}
    (hk : ∀ w', Stack w' env (prep c fs) → Yields (k w') env gs) :
    Yields ((w.onlyIf (c ≠ ' ') (·.leave [.blockQuote, .definitionBody])).bind fun w =>
      (w.onlyIf (c ≠ '>') (·.leave [.citation])).bind k) env gs := by
  refine yields_bind (fs := if c ≠ ' ' then leaveZ [.blockQuote, .definitionBody] fs else fs) ?_ ?_
  · by_cases hc : c = ' '
    · simp only [hc, Wiki.onlyIf, ne_eq, not_true_eq_false, decide_false, Bool.false_eq_true, if_false]
      exact yields_ok h
    · simp only [hc, Wiki.onlyIf, ne_eq, not_false_eq_true, decide_true, if_true]
      exact st_leave _ h (by decide)
  · intro w1 h1
    refine yields_bind (fs := prep c fs) ?_ hk
    by_cases hc : c = '>'
    · simp only [prep, hc, Wiki.onlyIf, ne_eq, not_true_eq_false, decide_false, Bool.false_eq_true, if_false] at h1 ⊢
      exact yields_ok h1
    · simp only [prep, hc, Wiki.onlyIf, ne_eq, not_false_eq_true, decide_true, if_true] at h1 ⊢
      exact st_leave _ h1 (by decide)

/-- The first line of a block opens an element. -/
def begun : List Frame → List Frame
  | [r] => [fresh .div, r.under]
  | fs => fs

/-- At the root, or inside an element of a block. -/
def Within (fs : List Frame) : Prop := (∃ r, fs = [r] ∧ r.klass = .root) ∨ (opened [.div] fs = true ∧ begun fs = fs)

theorem st_begin {fs : List Frame} (h : Stack w env fs) (hw : Within fs) : Yields (w.startIfNone .div) env (begun fs) := by
  rcases hw with ⟨r, rfl, hr⟩ | ⟨ho, hb⟩
  · have e : opened [.div] [r] = false := by simp [opened, hr]; decide
    exact st_startIfNone h e (by rw [hr]; rfl) (by simp) (fresh_good _ (by simp) (by simp))
  · rw [hb]; exact st_there h ho

theorem st_any {c : Char} {u : Text} {fs gs : List Frame} (h : Stack w env fs) (hw : Within fs) (he : endsDefinition (c :: u) = false)
    (hk : ∀ w1, Stack w1 env (prep c (begun fs)) → Yields (w1.items env (finditer linePatterns (c :: u))) env gs) :
    Yields (w.line env (c :: u)) env gs := by
  simp only [Wiki.line, st_block h, Wiki.parseLine, he, bind]
  refine yields_bind (st_begin h hw) ?_
  intro w1 h1
  refine st_prep c h1 ?_
  intro w2 h2
  refine yields_bind (yields_ok h2) ?_
  intro w3 h3
  exact yields_bind (hk w3 h3) fun w4 h4 => yields_ok h4

theorem st_term {c : Char} {u : Text} {fs gs hs : List Frame} (h : Stack w env fs) (hw : Within fs) (he : endsDefinition (c :: u) = true)
    (hd : ∀ w1, Stack w1 env (prep c (begun fs)) → Yields w1.startDefinition env gs)
    (hk : ∀ w1, Stack w1 env gs → Yields ((w1.items env (finditer linePatterns (c :: u))).bind (·.endDefinition)) env hs) :
    Yields (w.line env (c :: u)) env hs := by
  simp only [Wiki.line, st_block h, Wiki.parseLine, he, bind]
  refine yields_bind (st_begin h hw) ?_
  intro w1 h1
  refine st_prep c h1 ?_
  intro w2 h2
  exact yields_bind (hd w2 h2) hk

/-- No colon, no line break. -/
def Tame (t : Text) : Prop := ∀ c ∈ t, c ≠ ':' ∧ c ≠ '\n' ∧ c ≠ '\r'

theorem tame_append {a b : Text} (ha : Tame a) (hb : Tame b) : Tame (a ++ b) := by
  intro c hc
  rcases List.mem_append.1 hc with h | h
  · exact ha c h
  · exact hb c h

theorem tame_of (t : Text) (h : (t.all fun c => !(c == ':' || c == '\n' || c == '\r')) = true) : Tame t := by
  intro c hc
  have := List.all_eq_true.1 h c hc
  simp at this
  exact ⟨this.1.1, this.1.2, this.2⟩

theorem tame_plain {t : Text} (h : t.all plain = true) : Tame t := by
  intro c hc
  have := List.all_eq_true.1 h c hc
  refine ⟨?_, ?_, ?_⟩ <;> (rintro rfl; revert this; decide)

theorem tame_write {l : Line} (h : Fit l) : Tame (write l) := by
  induction l with
  | nil => intro c hc; cases hc
  | cons p l ih =>
    have hp := tame_plain (fit_cons h).2
    refine tame_append ?_ (ih (fit_tail h))
    cases p with
    | plain t => exact hp
    | styled s t =>
      refine tame_append (tame_append ?_ hp) ?_
      · cases s <;> exact tame_of _ (by decide)
      · cases s <;> exact tame_of _ (by decide)

theorem tame_ends {t : Text} (h : Tame t) : endsDefinition t = false := by
  simp only [endsDefinition, decide_eq_false_iff_not]
  intro e
  have : ':' ∈ t.reverse.take 2 := by rw [e]; simp
  have := List.mem_of_mem_take this
  exact (h ':' (List.mem_reverse.1 this)).1 rfl

theorem tame_mark (m : Mark) : Tame m.write := by
  apply tame_of
  cases m with
  | star => decide
  | sign b k => revert b k; decide
  | numeric k d => revert k d; decide
  | alpha k d => revert k d; decide
  | roman k d => revert k d; decide

theorem quiet_nil : Quiet [] := fun _ h => by cases h
theorem calm_nil : Calm [] := fun _ h => by cases h

/-! ### The empty line -/

theorem at_done {r : Frame} (h : Stack w env [r]) : { w with doc := w.doc.done } = w := by
  obtain ⟨⟨c, hc, hf, n, hn, hkl, hx, hkids, hb⟩, hs⟩ := h.pos
  have hc0 : c = 0 := by
    cases hp : n.parent with
    | none => rw [hp] at hb; exact hb
    | some p => rw [hp] at hb; exact False.elim hb
  subst hc0
  simp only [Editor.done]
  rw [← hc]

/-- The root with what has been written. -/
def rootFrame (p : List Tok) : Frame := ⟨.root, none, p, []⟩
/-- The element of a block. -/
def divFrame (p : List Tok) (t : Text) : Frame := ⟨.div, none, p, t⟩

theorem shut_div (d : Frame) (p : List Tok) (hk : d.klass = .div) : shut d (rootFrame p) = rootFrame (p ++ element t!"div" d.inner) := by
  simp [shut, rootFrame, Frame.toks, hk, openToks, closeToks, Node.opens, Node.closes, Klass.tag, element]

theorem st_blank {f d : Frame} {gs : List Frame} {p : List Tok} (h : Stack w env (f :: gs ++ d :: [rootFrame p]))
    (ho : opened [.div] (f :: gs) = false) (hd : d.klass = .div) :
    Yields (w.line env []) env [rootFrame (p ++ element t!"div" (collapse f (gs ++ [d])).inner)] := by
  have hk : (collapse f (gs ++ [d])).klass = .div := by
    clear h ho
    induction gs generalizing f with
    | nil => exact hd
    | cons g gs ih => exact ih (f := shut f g)
  simp only [Wiki.line, st_block h, Wiki.parseLine, bind]
  refine yields_bind (st_leave [.div] h (by decide)) ?_
  intro w1 h1
  rw [leaveZ_deep f gs d (rootFrame p) [] ho (by rw [hd]; rfl), shut_div _ _ hk] at h1
  rw [at_done h1]
  exact yields_ok h1

theorem st_blank' {d : Frame} {p : List Tok} (h : Stack w env [d, rootFrame p]) (hd : d.klass = .div) :
    Yields (w.line env []) env [rootFrame (p ++ element t!"div" d.inner)] := by
  simp only [Wiki.line, st_block h, Wiki.parseLine, bind]
  refine yields_bind (st_leave [.div] h (by decide)) ?_
  intro w1 h1
  rw [leaveZ_self (by rw [hd]; rfl), shut_div _ _ hd] at h1
  rw [at_done h1]
  exact yields_ok h1

/-! ### Paragraphs -/

theorem within_root (p : List Tok) : Within [rootFrame p] := Or.inl ⟨_, rfl, rfl⟩

theorem begun_root (p : List Tok) : begun [rootFrame p] = [fresh .div, rootFrame p] := by
  simp [begun, Frame.under, rootFrame, Frame.inner, words]

theorem within_two {f g : Frame} {fs : List Frame} (h : opened [.div] (f :: g :: fs) = true) : Within (f :: g :: fs) := Or.inr ⟨h, rfl⟩

theorem ordinary_toks {l : Line} (h : Ordinary l) : finditer linePatterns (write l) = lineToks l := by
  have := toks_line (start := true) (t := []) (xs := []) h.1 (fun _ => h.2.2) (fun e => absurd e h.2.1) quiet_nil calm_nil (toks_nil false)
  simpa using toks_finditer this

theorem write_ne {l : Line} (h : Fit l) (h0 : l ≠ []) : write l ≠ [] := by
  cases l with
  | nil => exact absurd rfl h0
  | cons p l =>
    have := (fit_cons h).1
    cases p with
    | plain t => simp only [write, List.flatMap_cons, Piece.write]; simp_all [Piece.text]
    | styled s t => simp only [write, List.flatMap_cons, Piece.write]; simp [before_ne]

/-- An ordinary line goes on where the text was. -/
theorem st_ordinary {f : Frame} {fs : List Frame} {l : Line} (h : Stack w env (f :: fs)) (hw : Within (f :: fs)) (hb : begun (f :: fs) = f :: fs)
    (hc : opened [.blockQuote, .definitionBody, .citation] (f :: fs) = false) (ho : Open f fs) (hl : Ordinary l) :
    Yields (w.line env (write l)) env (addLine f l :: fs) := by
  have ht := ordinary_toks hl
  have he := tame_ends (tame_write hl.1)
  have h0 := write_ne hl.1 hl.2.1
  cases hwl : write l with
  | nil => exact absurd hwl h0
  | cons c u =>
    rw [hwl] at ht he
    refine st_any h hw he ?_
    intro w1 h1
    rw [hb, prep_closed hc] at h1
    rw [ht]
    exact st_line l h1 ho

/-- The text of a heading with the spaces around it. -/
def padded (l : Line) : Line := .plain [' '] :: l ++ [.plain [' ']]

theorem fit_snoc {l : Line} (h : Fit l) : Fit (l ++ [.plain [' ']]) := by
  induction l with
  | nil => exact ⟨by simp [Piece.text], by decide⟩
  | cons p l ih =>
    cases l with
    | nil => exact ⟨h, Or.inr rfl, by simp [Piece.text], by decide⟩
    | cons q l => exact ⟨h.1, h.2.1, ih h.2.2⟩

theorem fit_padded {l : Line} (h : Fit l) : Fit (padded l) := by
  have h1 := fit_snoc h
  rw [padded, List.cons_append]
  cases hm : l ++ [.plain [' ']] with
  | nil => exact ⟨by simp [Piece.text], by decide⟩
  | cons q m => exact ⟨⟨by simp [Piece.text], by decide⟩, Or.inl rfl, by rw [← hm]; exact h1⟩

theorem write_padded (l : Line) : write (padded l) = ' ' :: write l ++ [' '] := by
  simp [padded, write, Piece.write]

def headKlass : Fin 3 → Klass
  | 0 => .h1
  | 1 => .h2
  | 2 => .h3

theorem rule_facts (n : Fin 3) : rule n ≠ [] ∧ ((rule n).all fun c => !('/' ≤ c && c ≤ '9')) = true ∧
    ((rule n).all fun c => !(c == ':' || c == '\n' || c == '\r')) = true ∧ (rule n).head? = some '=' := by
  revert n; decide

theorem head_facts (n : Fin 3) : takesStyle (headKlass n) = true ∧ noStyle (headKlass n) = true ∧ (headKlass n).isA (headKlass n) = true ∧
    Klass.root.isA (headKlass n) = false := by
  revert n; decide

theorem head_toks : ∀ n : Fin 3, openToks (headKlass n) = [.opening (t!"h" ++ [Char.ofNat ('1'.toNat + n)])] ∧
    closeToks (headKlass n) = [.closing (t!"h" ++ [Char.ofNat ('1'.toNat + n)])] :=
  fin3 (by decide +kernel) (by decide +kernel) (by decide +kernel)

theorem heading_toks {n : Fin 3} {l : Line} (h : Fit l) :
    finditer linePatterns (Part.write (.heading n l)) = (rulePat n, rule n, []) :: (lineToks (padded l) ++ [(rulePat n, rule n, [])]) := by
  apply toks_finditer
  have e : Part.write (.heading n l) = rule n ++ (write (padded l) ++ rule n) := by simp [Part.write, write_padded]
  have hr := (rule_facts n).1
  have hlast : Toks false (rule n) [(rulePat n, rule n, [])] := by
    have := toks_cons (start := false) (t := []) hr (rule_first n false [] (by simp)) rfl (toks_nil false)
    simpa using this
  rw [e]
  refine toks_cons hr (rule_first n true _ (by rw [write_padded]; simp)) rfl ?_
  refine toks_line (fit_padded h) (by simp) (by simp) (quiet_of _ (rule_facts n).2.1) ?_ hlast
  intro c hc
  have : c = '=' := by rw [(rule_facts n).2.2.2] at hc; exact (Option.some.inj hc).symm
  subst this
  simp [markChar]

theorem heading_item (w : Wiki) (n : Fin 3) : w.item env (rulePat n, rule n, []) = w.startOrEnd (headKlass n) := by
  rw [item_handle _ _ _ _ _ (by revert n; decide)]
  match n with
  | 0 | 1 | 2 => rfl

theorem heading_tame {n : Fin 3} {l : Line} (h : Fit l) : Tame (Part.write (.heading n l)) := by
  have e : Part.write (.heading n l) = rule n ++ (write (padded l) ++ rule n) := by simp [Part.write, write_padded]
  have hr : Tame (rule n) := tame_of _ (rule_facts n).2.2.1
  rw [e]
  exact tame_append hr (tame_append (tame_write (fit_padded h)) hr)

/-- The element of a block, and the root. -/
def isBlock (f : Frame) : Prop := f.klass = .div ∧ f.extra = none

theorem opened_div {ks : List Klass} {f : Frame} {p : List Tok} (hf : f.klass = .div) (h1 : (ks.any fun c => Klass.div.isA c) = false)
    (h2 : (ks.any fun c => Klass.root.isA c) = false) : opened ks [f, rootFrame p] = false := by
  simp only [opened, List.any_cons, List.any_nil, hf, h1, rootFrame, h2, Bool.or_self]

theorem open_div {f : Frame} {p : List Tok} (hf : f.klass = .div) : Open f [rootFrame p] := by
  refine ⟨by rw [hf]; rfl, ?_⟩
  intro g hg
  simp only [List.mem_cons, List.not_mem_nil, or_false] at hg
  rcases hg with rfl | rfl
  · rw [hf]; rfl
  · rfl


/-- A part of a paragraph. -/
def addPart (f : Frame) : Part → Frame
  | .line l => addLine f l
  | .heading n l => { f with pre := f.inner ++ element (t!"h" ++ [Char.ofNat ('1'.toNat + n)]) (flow [] (padded l)), tail := [] }

theorem heading_items {f : Frame} {p : List Tok} {n : Fin 3} {l : Line} (h : Stack w env [f, rootFrame p]) (hf : f.klass = .div)  :
    Yields (w.items env ((rulePat n, rule n, []) :: (lineToks (padded l) ++ [(rulePat n, rule n, [])]))) env
      [addPart f (.heading n l), rootFrame p] := by
  rw [items_cons, heading_item]
  refine yields_bind (fs := [fresh (headKlass n), f.under, rootFrame p]) ?_ ?_
  · have e : ∀ n : Fin 3, (Klass.div.isA (headKlass n)) = false ∧ Klass.root.isA (headKlass n) = false ∧
        Klass.div.accepts (headKlass n) = true ∧ headKlass n ≠ .root ∧ headKlass n ≠ .text ∧ headKlass n ≠ .list none := by decide
    obtain ⟨e1, e2, e3, e4, e5, e6⟩ := e n
    exact st_startOrEnd h (opened_div hf (by simp [e1]) (by simp [e2])) (by rw [hf]; exact e3) e4 (fresh_good _ e5 e6)
  · intro w1 h1
    rw [items_append]
    refine yields_bind (st_line (padded l) h1 ?_) ?_
    · refine ⟨?_, ?_⟩
      · exact (head_facts n).1
      · intro g hg
        rcases List.mem_cons.1 hg with rfl | hg
        · exact (head_facts n).2.1
        · exact (open_div (f := f.under) (p := p) hf).free g hg
    · intro w2 h2
      rw [items_cons, heading_item]
      refine yields_bind (st_startOrEnd_end h2 ?_ ?_) ?_
      · rw [addLine_klass]
        exact (head_facts n).2.2.1
      · exact (head_facts n).2.2.2
      · intro w3 h3
        have e : shut (addLine (fresh (headKlass n)) (padded l)) f.under = addPart f (.heading n l) := by
          simp only [shut, Frame.toks, addLine_klass, addLine_inner, Frame.under, addPart]
          simp only [fresh, (head_toks n).1, (head_toks n).2, element, List.nil_append, List.cons_append]
        rw [e] at h3
        exact yields_ok h3

theorem part_within {f : Frame} {p : List Tok} (hf : f.klass = .div) : Within [f, rootFrame p] := by
  refine within_two ?_
  simp only [opened, List.any_cons, hf]
  rfl

theorem part_toks {x : Part} (h : x.Fit) : ∃ c u, x.write = c :: u ∧ endsDefinition (c :: u) = false := by
  cases x with
  | line l =>
    have h0 := write_ne h.1 h.2.1
    have he := tame_ends (tame_write h.1)
    cases hw : write l with
    | nil => exact absurd hw h0
    | cons c u => exact ⟨c, u, hw, by rw [← hw]; exact he⟩
  | heading n l =>
    have he := tame_ends (heading_tame (n := n) h)
    have e : ∃ c u, Part.write (.heading n l) = c :: u := by
      refine ⟨'=', List.replicate n '=' ++ ' ' :: write l ++ ' ' :: rule n, ?_⟩
      simp [Part.write, rule, List.replicate_succ]
    obtain ⟨c, u, e⟩ := e
    exact ⟨c, u, e, by rw [← e]; exact he⟩

theorem st_part_from {fs : List Frame} {f : Frame} {p : List Tok} {x : Part} (h : Stack w env fs) (hw : Within fs)
    (hb : begun fs = [f, rootFrame p]) (hf : f.klass = .div) (hx : x.Fit) :
    Yields (w.line env x.write) env [addPart f x, rootFrame p] := by
  obtain ⟨c, u, e, he⟩ := part_toks hx
  rw [e]
  refine st_any h hw he ?_
  intro w1 h1
  rw [hb, prep_closed (opened_div hf (by rfl) (by rfl))] at h1
  rw [← e]
  cases x with
  | line l =>
    have ht := ordinary_toks hx
    show Yields (w1.items env (finditer linePatterns (write l))) env _
    rw [ht]
    exact st_line l h1 (open_div hf)
  | heading n l =>
    rw [heading_toks hx]
    exact heading_items h1 hf

theorem addPart_klass (f : Frame) (x : Part) : (addPart f x).klass = f.klass := by
  cases x with
  | line l => exact addLine_klass f l
  | heading n l => rfl

theorem st_parts {f : Frame} {p : List Tok} (xs : List Part) (h : Stack w env [f, rootFrame p]) (hf : f.klass = .div) (hx : ∀ x ∈ xs, x.Fit) :
    Yields (w.lines env (xs.map Part.write)) env [xs.foldl addPart f, rootFrame p] := by
  induction xs generalizing w f with
  | nil => exact yields_ok h
  | cons x xs ih =>
    rw [List.map_cons, lines_cons, List.foldl_cons]
    refine yields_bind (st_part_from h (part_within hf) rfl hf (hx x (List.mem_cons_self ..))) ?_
    intro w1 h1
    exact ih h1 ((addPart_klass f x).trans hf) fun y hy => hx y (List.mem_cons_of_mem _ hy)

theorem parts_inner (xs : List Part) (g : Frame) (before : Line) (hg : g.tail = []) :
    (xs.foldl addPart (addLine g before)).inner = g.pre ++ partsHtml before xs := by
  induction xs generalizing g before with
  | nil => simp only [List.foldl_nil, addLine_inner, hg, partsHtml]
  | cons x xs ih =>
    cases x with
    | line l =>
      simp only [List.foldl_cons, addPart, addLine_append, partsHtml]
      exact ih g (before ++ l) hg
    | heading n l =>
      have := ih (addPart (addLine g before) (.heading n l)) [] rfl
      simp only [List.foldl_cons, partsHtml]
      refine this.trans ?_
      simp only [addPart, addLine_inner, hg, padded, List.append_assoc]

theorem st_text_block {p : List Tok} (xs : List Part) (h : Stack w env [rootFrame p]) (hb : (Block.text xs).Fit) :
    Yields (w.lines env ((Block.text xs).write ++ [[]])) env [rootFrame (p ++ (Block.text xs).html)] := by
  obtain ⟨h0, hx⟩ := hb
  cases xs with
  | nil => exact absurd rfl h0
  | cons x xs =>
    simp only [Block.write, List.map_cons, List.cons_append]
    rw [lines_cons]
    refine yields_bind (st_part_from h (within_root p) (begun_root p) rfl (hx x (List.mem_cons_self ..))) ?_
    intro w1 h1
    rw [lines_append]
    refine yields_bind (st_parts xs h1 (addPart_klass _ x) fun y hy => hx y (List.mem_cons_of_mem _ hy)) ?_
    intro w2 h2
    rw [lines_one]
    have hk : ∀ (ys : List Part) (f : Frame), (ys.foldl addPart f).klass = f.klass := by
      intro ys
      induction ys with
      | nil => intro f; rfl
      | cons y ys ih => intro f; exact (ih _).trans (addPart_klass f y)
    have := st_blank' h2 ((hk xs _).trans (addPart_klass _ x))
    have e := parts_inner (x :: xs) (fresh .div) [] rfl
    simp only [List.foldl_cons] at e
    rw [show addLine (fresh .div) [] = fresh .div from rfl] at e
    rw [e] at this
    exact this

end Bglib.Doc
