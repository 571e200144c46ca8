import Verif.Lemmas.DocQuotes
/-
Tables and terms.
-/
namespace Bglib.Doc
open Spec.Document

variable {w w' : Wiki} {env : Env}

/-! ### Tables -/

/-- The text of a row. -/
def rowText (r : List Line) : Text := t!"||" ++ r.flatMap fun l => write l ++ t!"||"

def rowToks : List Line → List LineToken
  | [] => [(.tableEnd, t!"||", [])]
  | l :: r => (.tableCell, t!"||", []) :: (lineToks l ++ rowToks r)

theorem rowText_cons (l : Line) (r : List Line) : rowText (l :: r) = t!"||" ++ (write l ++ rowText r) := by
  simp [rowText]

theorem row_quiet {r : List Line} (h : ∀ l ∈ r, Fit l) : Quiet (rowText r) := by
  induction r with
  | nil => exact quiet_of _ (by decide)
  | cons l r ih =>
    rw [rowText_cons]
    exact quiet_append (quiet_of _ (by decide)) (quiet_append (write_quiet (h l (List.mem_cons_self ..)))
      (ih fun x hx => h x (List.mem_cons_of_mem _ hx)))

theorem row_toks {r : List Line} (b : Bool) (h : ∀ l ∈ r, Fit l) : Toks b (rowText r) (rowToks r) := by
  induction r generalizing b with
  | nil =>
    have := toks_cons (start := b) (m := t!"||") (t := []) (by simp) (end_first b) rfl (toks_nil false)
    exact this
  | cons l r ih =>
    have h' : ∀ x ∈ r, Fit x := fun x hx => h x (List.mem_cons_of_mem _ hx)
    rw [rowText_cons, rowToks]
    refine toks_cons (by simp) (cell_first b _ (by simp [rowText])) rfl ?_
    refine toks_line (h l (List.mem_cons_self ..)) (by simp) (by simp) (row_quiet h') ?_ (ih false h')
    intro c hc
    have : c = '|' := by simpa [rowText] using hc.symm
    subst this
    simp [markChar]

theorem row_tame {r : List Line} (h : ∀ l ∈ r, Fit l) : Tame (rowText r) := by
  induction r with
  | nil => exact tame_of _ (by decide)
  | cons l r ih =>
    rw [rowText_cons]
    exact tame_append (tame_of _ (by decide)) (tame_append (tame_write (h l (List.mem_cons_self ..)))
      (ih fun x hx => h x (List.mem_cons_of_mem _ hx)))

/-- A cell more in a row. -/
def addCell (tr : Frame) (l : Line) : Frame := { tr with pre := tr.pre ++ element t!"td" (flow [] l), tail := [] }

theorem shut_cell (tr : Frame) (l : Line) : shut (addLine (fresh .tableCell) l) tr = addCell tr l := by
  simp only [shut, addCell]
  rw [toks_of (k := .tableCell) (addLine_klass _ _), addLine_inner]
  simp [fresh, openToks, closeToks, Node.opens, Node.closes, element, Klass.tag]

/-- The frames around a cell. -/
structure InRow (tr tb d : Frame) : Prop where
  row : tr.klass = .tableRow
  tail : tr.tail = []
  table : tb.klass = .table
  block : d.klass = .div

theorem cell_item (w : Wiki) : w.item env (.tableCell, t!"||", []) = w.tableCell := item_handle w env _ _ _ (by simp)
theorem end_item (w : Wiki) : w.item env (.tableEnd, t!"||", []) = w.leave [.tableRow] := item_handle w env _ _ _ (by simp)

theorem open_cell {td tr tb d : Frame} {p : List Tok} (ht : td.klass = .tableCell) (h : InRow tr tb d) : Open td [tr, tb, d, rootFrame p] := by
  refine ⟨by rw [ht]; rfl, ?_⟩
  intro g hg
  simp only [List.mem_cons, List.not_mem_nil, or_false] at hg
  rcases hg with rfl | rfl | rfl | rfl | rfl
  · rw [ht]; rfl
  · rw [h.row]; rfl
  · rw [h.table]; rfl
  · rw [h.block]; rfl
  · rfl

theorem st_cell {td tr tb d : Frame} {p : List Tok} (h : Stack w env [td, tr, tb, d, rootFrame p]) (ht : td.klass = .tableCell) (hr : InRow tr tb d) :
    Yields w.tableCell env [fresh .tableCell, shut td tr, tb, d, rootFrame p] := by
  simp only [Wiki.tableCell, bind]
  refine yields_bind (st_there h (by simp only [opened, List.any_cons, ht, hr.row, hr.table]; rfl)) ?_
  intro w1 h1
  refine yields_bind (st_there h1 (by simp only [opened, List.any_cons, ht, hr.row, hr.table]; rfl)) ?_
  intro w2 h2
  refine yields_bind (st_leave [.tableCell] h2 (by decide)) ?_
  intro w3 h3
  rw [leaveZ_self (by rw [ht]; rfl)] at h3
  have := st_enter (k := .tableCell) (x := none) h3 (by show tr.klass.accepts _ = true; rw [hr.row]; rfl) (by simp) (fresh_good _ (by simp) (by simp))
  rw [under_of rfl] at this
  exact this

theorem st_row_end {td tr tb d : Frame} {p : List Tok} (h : Stack w env [td, tr, tb, d, rootFrame p]) (ht : td.klass = .tableCell) (hr : InRow tr tb d) :
    Yields (w.leave [.tableRow]) env [shut (shut td tr) tb, d, rootFrame p] := by
  have := st_leave [.tableRow] h (by decide)
  rw [show [td, tr, tb, d, rootFrame p] = td :: [] ++ tr :: tb :: [d, rootFrame p] from rfl, leaveZ_deep td [] tr tb [d, rootFrame p]
    (by rw [opened_cons, ht]; rfl) (by rw [hr.row]; rfl)] at this
  exact this

theorem st_cells {tr tb d : Frame} {p : List Tok} (l : Line) (r : List Line)
    (h : Stack w env [addLine (fresh .tableCell) l, tr, tb, d, rootFrame p]) (hr : InRow tr tb d) :
    Yields (w.items env (rowToks r)) env [shut (r.foldl addCell (addCell tr l)) tb, d, rootFrame p] := by
  induction r generalizing w tr l with
  | nil =>
    rw [rowToks, items_cons, end_item]
    refine yields_bind (st_row_end h (addLine_klass _ _) hr) ?_
    intro w1 h1
    rw [shut_cell] at h1
    exact yields_ok h1
  | cons m r ih =>
    rw [rowToks, items_cons, cell_item, List.foldl_cons]
    refine yields_bind (st_cell h (addLine_klass _ _) hr) ?_
    intro w1 h1
    rw [shut_cell] at h1
    have hr' : InRow (addCell tr l) tb d := ⟨hr.row, rfl, hr.table, hr.block⟩
    rw [items_append]
    refine yields_bind (st_line m h1 (open_cell rfl hr')) ?_
    intro w2 h2
    exact ih m h2 hr'

/-- The first cell of a row in an open table. -/
theorem st_first_cell {tb d : Frame} {p : List Tok} (h : Stack w env [tb, d, rootFrame p]) (hb : tb.klass = .table) (ht : tb.tail = []) (hd : d.klass = .div) :
    Yields w.tableCell env [fresh .tableCell, fresh .tableRow, tb, d, rootFrame p] := by
  simp only [Wiki.tableCell, bind]
  refine yields_bind (st_there h (by simp only [opened, List.any_cons, hb]; rfl)) ?_
  intro w1 h1
  refine yields_bind (st_startIfNone h1 (by simp only [opened, List.any_cons, hb, hd]; rfl) (by rw [hb]; rfl) (by simp) (fresh_good _ (by simp) (by simp))) ?_
  intro w2 h2
  rw [under_of ht] at h2
  refine yields_bind (st_leave [.tableCell] h2 (by decide)) ?_
  intro w3 h3
  rw [leaveZ_closed (by simp only [opened, List.any_cons, hb, hd]; rfl)] at h3
  have := st_enter (k := .tableCell) (x := none) h3 rfl (by simp) (fresh_good _ (by simp) (by simp))
  rw [fresh_under] at this
  exact this

/-- The first cell of a table. -/
theorem st_first_row {p : List Tok} (h : Stack w env [fresh .div, rootFrame p]) :
    Yields w.tableCell env [fresh .tableCell, fresh .tableRow, fresh .table, fresh .div, rootFrame p] := by
  simp only [Wiki.tableCell, bind]
  refine yields_bind (st_startIfNone h rfl rfl (by simp) (fresh_good .table (by simp) (by simp))) ?_
  intro w1 h1
  rw [fresh_under] at h1
  refine yields_bind (st_startIfNone h1 rfl rfl (by simp) (fresh_good .tableRow (by simp) (by simp))) ?_
  intro w2 h2
  rw [fresh_under] at h2
  refine yields_bind (st_leave [.tableCell] h2 (by decide)) ?_
  intro w3 h3
  rw [leaveZ_closed rfl] at h3
  have := st_enter (k := .tableCell) (x := none) h3 rfl (by simp) (fresh_good _ (by simp) (by simp))
  rw [fresh_under] at this
  exact this

/-- A row more in a table. -/
def addRow (tb : Frame) (r : List Line) : Frame :=
  { tb with pre := tb.pre ++ element t!"tr" (r.flatMap fun l => element t!"td" (flow [] l)), tail := [] }

theorem cells_pre (r : List Line) (tr : Frame) (h : tr.tail = []) :
    r.foldl addCell tr = { tr with pre := tr.pre ++ r.flatMap fun l => element t!"td" (flow [] l) } := by
  induction r generalizing tr with
  | nil => simp
  | cons l r ih =>
    rw [List.foldl_cons, ih _ rfl]
    simp [addCell, h]

theorem shut_row (tb : Frame) (l : Line) (r : List Line) : shut (r.foldl addCell (addCell (fresh .tableRow) l)) tb = addRow tb (l :: r) := by
  rw [← List.foldl_cons (f := addCell), cells_pre _ _ rfl]
  simp only [shut, addRow]
  rw [toks_of (k := .tableRow) rfl]
  simp [fresh, openToks, closeToks, Node.opens, Node.closes, element, Klass.tag, Frame.inner, words]

theorem row_start (r : List Line) : ∃ u, rowText r = '|' :: u := ⟨_, rfl⟩

theorem st_row_items {tb : Frame} {fs : List Frame} {d : Frame} {p : List Tok} (l : Line) (r : List Line) (h : Stack w env fs)
    (hc : Yields w.tableCell env [fresh .tableCell, fresh .tableRow, tb, d, rootFrame p]) (hb : tb.klass = .table) (hd : d.klass = .div) :
    Yields (w.items env (rowToks (l :: r))) env [addRow tb (l :: r), d, rootFrame p] := by
  rw [rowToks, items_cons, cell_item]
  refine yields_bind hc ?_
  intro w1 h1
  have hr : InRow (fresh .tableRow) tb d := ⟨rfl, rfl, hb, hd⟩
  rw [items_append]
  refine yields_bind (st_line l h1 (open_cell rfl hr)) ?_
  intro w2 h2
  have := st_cells l r h2 hr
  rw [shut_row] at this
  exact this

theorem st_row {tb d : Frame} {p : List Tok} (r : List Line) (h : Stack w env [tb, d, rootFrame p]) (hb : tb.klass = .table) (ht : tb.tail = [])
    (hd : d.klass = .div) (h0 : r ≠ []) (hl : ∀ l ∈ r, Fit l) :
    Yields (w.line env (rowText r)) env [addRow tb r, d, rootFrame p] := by
  have he := tame_ends (row_tame hl)
  have hk := toks_finditer (row_toks true hl)
  obtain ⟨u, e⟩ := row_start r
  rw [e] at he hk ⊢
  refine st_any h (within_two (by simp only [opened, List.any_cons, hd]; simp; exact Or.inr (Or.inl rfl))) he ?_
  intro w1 h1
  rw [begun_long, prep_closed (by simp only [opened, List.any_cons, hb, hd]; rfl)] at h1
  rw [hk]
  cases r with
  | nil => exact absurd rfl h0
  | cons l r => exact st_row_items l r h1 (st_first_cell h1 hb ht hd) hb hd

theorem st_row_first {p : List Tok} (r : List Line) (h : Stack w env [rootFrame p]) (h0 : r ≠ []) (hl : ∀ l ∈ r, Fit l) :
    Yields (w.line env (rowText r)) env [addRow (fresh .table) r, fresh .div, rootFrame p] := by
  have he := tame_ends (row_tame hl)
  have hk := toks_finditer (row_toks true hl)
  obtain ⟨u, e⟩ := row_start r
  rw [e] at he hk ⊢
  refine st_any h (within_root p) he ?_
  intro w1 h1
  rw [begun_root, prep_closed rfl] at h1
  rw [hk]
  cases r with
  | nil => exact absurd rfl h0
  | cons l r => exact st_row_items l r h1 (st_first_row h1) rfl rfl

theorem st_rows {tb d : Frame} {p : List Tok} (rs : List (List Line)) (h : Stack w env [tb, d, rootFrame p]) (hb : tb.klass = .table) (ht : tb.tail = [])
    (hd : d.klass = .div) (hl : ∀ r ∈ rs, r ≠ [] ∧ ∀ l ∈ r, Fit l) :
    Yields (w.lines env (rs.map rowText)) env [rs.foldl addRow tb, d, rootFrame p] := by
  induction rs generalizing w tb with
  | nil => exact yields_ok h
  | cons r rs ih =>
    rw [List.map_cons, lines_cons, List.foldl_cons]
    obtain ⟨h0, h1⟩ := hl r (List.mem_cons_self ..)
    refine yields_bind (st_row r h hb ht hd h0 h1) ?_
    intro w1 h1
    exact ih h1 hb rfl fun x hx => hl x (List.mem_cons_of_mem _ hx)

theorem rows_frame (rs : List (List Line)) (tb : Frame) (h : tb.tail = []) :
    rs.foldl addRow tb = { tb with pre := tb.pre ++ rs.flatMap fun r => element t!"tr" (r.flatMap fun l => element t!"td" (flow [] l)) } := by
  induction rs generalizing tb with
  | nil => simp
  | cons l r ih =>
    rw [List.foldl_cons, ih _ rfl]
    simp [addRow, h]

theorem st_table_block {p : List Tok} (rs : List (List Line)) (h : Stack w env [rootFrame p]) (hb : (Block.table rs).Fit) :
    Yields (w.lines env ((Block.table rs).write ++ [[]])) env [rootFrame (p ++ (Block.table rs).html)] := by
  obtain ⟨h0, hx⟩ := hb
  cases rs with
  | nil => exact absurd rfl h0
  | cons r rs =>
    show Yields (w.lines env (rowText r :: (rs.map rowText ++ [[]]))) env _
    rw [lines_cons]
    obtain ⟨k0, k1⟩ := hx r (List.mem_cons_self ..)
    refine yields_bind (st_row_first r h k0 k1) ?_
    intro w1 h1
    rw [lines_append]
    refine yields_bind (st_rows rs h1 rfl rfl rfl fun y hy => hx y (List.mem_cons_of_mem _ hy)) ?_
    intro w2 h2
    rw [lines_one]
    rw [← List.foldl_cons (f := addRow), rows_frame _ _ rfl] at h2
    have := st_blank (gs := []) h2 rfl rfl
    rw [List.nil_append, collapse, collapse, shut_inner, toks_of (k := .table) rfl] at this
    simpa [fresh, openToks, closeToks, Node.opens, Node.closes, element, Klass.tag, Frame.inner, words, Block.html] using this

/-! ### Terms -/

/-- The lines of a term. -/
def termText (x : Text × List Line) : List Text := (x.1 ++ t!"::") :: x.2.map fun b => t!"  " ++ write b

theorem term_toks {t : Text} (h : Ordinary [.plain t]) : finditer linePatterns (t ++ t!"::") = plainToks t ++ [(.definitionHeader, t!"::", [])] := by
  apply toks_finditer
  have hc : Toks false t!"::" [(.definitionHeader, t!"::", [])] :=
    toks_cons (start := false) (m := t!"::") (t := []) (by simp) (colons_first false) rfl (toks_nil false)
  have := toks_line (start := true) (l := [.plain t]) (t := t!"::") h.1 (fun _ => h.2.2) (by simp) (quiet_of _ (by decide))
    (by intro c hc; have : c = ':' := by simpa using hc.symm
        subst this; simp [markChar]) hc
  simpa [write, Piece.write, lineToks, pieceToks] using this

theorem term_ends (t : Text) : endsDefinition (t ++ t!"::") = true := by simp [endsDefinition]

theorem header_item (w : Wiki) : w.item env (.definitionHeader, t!"::", []) = .ok w := item_handle w env _ _ _ (by simp)

/-- A term more in a list of terms. -/
def addHead (dl : Frame) (t : Text) : Frame := { dl with pre := dl.pre ++ element t!"dt" (words t), tail := [] }

theorem st_term_items {dl d : Frame} {p : List Tok} (t : Text) (h : Stack w env [fresh .definitionHeader, dl, d, rootFrame p]) (hk : dl.klass = .definitionList) :
    Yields ((w.items env (plainToks t ++ [(.definitionHeader, t!"::", [])])).bind (·.endDefinition)) env
      [fresh .definitionBody, addHead dl t, d, rootFrame p] := by
  rw [items_append]
  obtain ⟨w1, e1, h1⟩ := st_plain t h
  rw [e1]
  simp only [Except.bind, items_cons, header_item, Wiki.items, Wiki.endDefinition, bind]
  refine yields_bind (st_leave [.definitionHeader] h1 (by decide)) ?_
  intro w2 h2
  rw [leaveZ_self rfl] at h2
  have e : shut { fresh .definitionHeader with tail := (fresh .definitionHeader).tail ++ t } dl = addHead dl t := by
    simp only [shut, addHead]
    rw [toks_of (k := .definitionHeader) rfl]
    simp [fresh, openToks, closeToks, Node.opens, Node.closes, element, Klass.tag, Frame.inner]
  have := st_enter (k := .definitionBody) (x := none) h2 (by show dl.klass.accepts _ = true; rw [hk]; rfl) (by simp) (fresh_good _ (by simp) (by simp))
  rw [under_of rfl, e] at this
  exact this

theorem st_define {dl d : Frame} {p : List Tok} (h : Stack w env [dl, d, rootFrame p]) (hk : dl.klass = .definitionList) (ht : dl.tail = []) :
    Yields w.startDefinition env [fresh .definitionHeader, dl, d, rootFrame p] := by
  simp only [Wiki.startDefinition, bind]
  refine yields_bind (st_there h (by rw [opened_cons, hk]; rfl)) ?_
  intro w1 h1
  have := st_enter (k := .definitionHeader) (x := none) h1 (by rw [hk]; rfl) (by simp) (fresh_good _ (by simp) (by simp))
  rw [under_of ht] at this
  exact this

theorem st_define_first {p : List Tok} (h : Stack w env [fresh .div, rootFrame p]) :
    Yields w.startDefinition env [fresh .definitionHeader, fresh .definitionList, fresh .div, rootFrame p] := by
  simp only [Wiki.startDefinition, bind]
  refine yields_bind (st_startIfNone h rfl rfl (by simp) (fresh_good .definitionList (by simp) (by simp))) ?_
  intro w1 h1
  rw [fresh_under] at h1
  have := st_enter (k := .definitionHeader) (x := none) h1 rfl (by simp) (fresh_good _ (by simp) (by simp))
  rw [fresh_under] at this
  exact this

theorem term_start {t : Text} (h : Ordinary [.plain t]) : ∃ c u, t ++ t!"::" = c :: u ∧ c ≠ ' ' ∧ (c :: u).head? = some c := by
  obtain ⟨⟨h0, h1⟩, _, h2⟩ := h
  cases t with
  | nil => exact absurd rfl h0
  | cons c u => exact ⟨c, u ++ t!"::", rfl, by simpa [write, Piece.write] using h2, rfl⟩

theorem prep_term {c : Char} {dd dl d : Frame} {p : List Tok} (hc : c ≠ ' ') (h1 : dd.klass = .definitionBody) (h2 : dl.klass = .definitionList)
    (h3 : d.klass = .div) : prep c [dd, dl, d, rootFrame p] = [shut dd dl, d, rootFrame p] := by
  simp only [prep, ne_eq, hc, not_false_eq_true, if_true]
  rw [leaveZ_self (by rw [h1]; rfl)]
  have : opened [.citation] [shut dd dl, d, rootFrame p] = false := by
    simp only [opened, List.any_cons, h3, show (shut dd dl).klass = .definitionList from h2]; rfl
  rw [leaveZ_closed this, ite_self]

theorem st_term_next {dd dl d : Frame} {p : List Tok} {t : Text} (h : Stack w env [dd, dl, d, rootFrame p]) (h1 : dd.klass = .definitionBody)
    (h2 : dl.klass = .definitionList) (h3 : d.klass = .div) (ht : Ordinary [.plain t]) :
    Yields (w.line env (t ++ t!"::")) env [fresh .definitionBody, addHead (shut dd dl) t, d, rootFrame p] := by
  have hk := term_toks ht
  have he := term_ends t
  obtain ⟨c, u, e, hc, _⟩ := term_start ht
  rw [e] at hk he ⊢
  refine st_term (gs := [fresh .definitionHeader, shut dd dl, d, rootFrame p]) h
    (within_two (by simp only [opened, List.any_cons, h3]; simp; exact Or.inr (Or.inr (Or.inl rfl)))) he ?_ ?_
  · intro w1 k1
    rw [begun_long, prep_term hc h1 h2 h3] at k1
    exact st_define k1 h2 rfl
  · intro w1 k1
    rw [hk]
    exact st_term_items t k1 h2

theorem st_term_first {p : List Tok} {t : Text} (h : Stack w env [rootFrame p]) (ht : Ordinary [.plain t]) :
    Yields (w.line env (t ++ t!"::")) env [fresh .definitionBody, addHead (fresh .definitionList) t, fresh .div, rootFrame p] := by
  have hk := term_toks ht
  have he := term_ends t
  obtain ⟨c, u, e, hc, _⟩ := term_start ht
  rw [e] at hk he ⊢
  refine st_term (gs := [fresh .definitionHeader, fresh .definitionList, fresh .div, rootFrame p]) h (within_root p) he ?_ ?_
  · intro w1 k1
    rw [begun_root, prep_closed rfl] at k1
    exact st_define_first k1
  · intro w1 k1
    rw [hk]
    exact st_term_items t k1 rfl

theorem quote_body {f : Frame} {fs : List Frame} (h : Stack w env (f :: fs)) (hf : f.klass = .definitionBody) (ho : opened [.definitionList] (f :: fs) = true) :
    Yields w.quote env (f :: fs) := by
  have := at_ancestor [.definitionList] h.pos
  rw [if_pos ho] at this
  obtain ⟨i, e⟩ := this
  obtain ⟨j, e1, e2⟩ := at_self [.definitionBody] h.pos (by rw [hf]; rfl)
  simp only [Wiki.quote, e, e2, bind, Except.bind, pure, Except.pure]
  rw [← e1]
  exact yields_ok h

theorem open_body {dd dl d : Frame} {p : List Tok} (h1 : dd.klass = .definitionBody) (h2 : dl.klass = .definitionList) (h3 : d.klass = .div) :
    Open dd [dl, d, rootFrame p] := by
  refine ⟨by rw [h1]; rfl, ?_⟩
  intro g hg
  simp only [List.mem_cons, List.not_mem_nil, or_false] at hg
  rcases hg with rfl | rfl | rfl | rfl
  · rw [h1]; rfl
  · rw [h2]; rfl
  · rw [h3]; rfl
  · rfl

theorem st_body {dd dl d : Frame} {p : List Tok} {l : Line} (h : Stack w env [dd, dl, d, rootFrame p]) (h1 : dd.klass = .definitionBody)
    (h2 : dl.klass = .definitionList) (h3 : d.klass = .div) (hl : Quoted l) :
    Yields (w.line env (t!"  " ++ write l)) env [addLine dd l, dl, d, rootFrame p] := by
  refine st_any h (within_two (by simp only [opened, List.any_cons, h3]; simp; exact Or.inr (Or.inr (Or.inl rfl)))) (quoted_tame hl) ?_
  intro w1 k1
  rw [begun_long, prep_blank (by simp only [opened, List.any_cons, h1, h2, h3]; rfl)] at k1
  show Yields (w1.items env (finditer linePatterns (t!"  " ++ write l))) env _
  rw [quoted_toks hl, items_cons, quote_item]
  refine yields_bind (quote_body k1 h1 (by simp only [opened, List.any_cons, h2]; simp; exact Or.inr (Or.inl rfl))) ?_
  intro w2 k2
  exact st_line l k2 (open_body h1 h2 h3)

theorem st_bodies {dd dl d : Frame} {p : List Tok} (ls : List Line) (h : Stack w env [dd, dl, d, rootFrame p]) (h1 : dd.klass = .definitionBody)
    (h2 : dl.klass = .definitionList) (h3 : d.klass = .div) (hl : ∀ l ∈ ls, Quoted l) :
    Yields (w.lines env (ls.map fun l => t!"  " ++ write l)) env [addLine dd ls.flatten, dl, d, rootFrame p] := by
  induction ls generalizing w dd with
  | nil => exact yields_ok h
  | cons l ls ih =>
    rw [List.map_cons, lines_cons, List.flatten_cons, ← addLine_append]
    refine yields_bind (st_body h h1 h2 h3 (hl l (List.mem_cons_self ..))) ?_
    intro w1 k1
    exact ih k1 ((addLine_klass dd l).trans h1) fun x hx => hl x (List.mem_cons_of_mem _ hx)

/-- What a term adds to the list when it is closed. -/
def addTerm (dl : Frame) (x : Text × List Line) : Frame :=
  { dl with pre := dl.pre ++ (element t!"dt" (words x.1) ++ element t!"dd" (shown x.2)), tail := [] }

theorem shut_term (dl : Frame) (x : Text × List Line) : shut (addLine (fresh .definitionBody) x.2.flatten) (addHead dl x.1) = addTerm dl x := by
  simp only [shut, addTerm]
  rw [toks_of (k := .definitionBody) (addLine_klass _ _), addLine_inner]
  simp [fresh, openToks, closeToks, Node.opens, Node.closes, element, Klass.tag, addHead, shown]

theorem st_terms {dl d : Frame} {p : List Tok} (x : Text × List Line) (xs : List (Text × List Line))
    (h : Stack w env [addLine (fresh .definitionBody) x.2.flatten, addHead dl x.1, d, rootFrame p])
    (h2 : dl.klass = .definitionList) (h3 : d.klass = .div) (hl : ∀ y ∈ xs, Ordinary [.plain y.1] ∧ ∀ b ∈ y.2, Quoted b) :
    Yields (w.lines env (xs.flatMap termText ++ [[]])) env
      [rootFrame (p ++ element t!"div" (d.pre ++ (xs.foldl addTerm (addTerm dl x)).toks))] := by
  induction xs generalizing w dl x with
  | nil =>
    rw [List.flatMap_nil, List.nil_append, lines_one, List.foldl_nil, ← shut_term]
    have hk : (addLine (fresh .definitionBody) x.2.flatten).klass = .definitionBody := addLine_klass _ _
    have := st_blank (gs := [addHead dl x.1]) h (by simp only [opened, List.any_cons, hk, show (addHead dl x.1).klass = .definitionList from h2]; rfl) h3
    simp only [List.cons_append, List.nil_append, collapse] at this
    rw [shut_inner] at this
    exact this
  | cons y ys ih =>
    obtain ⟨k1, k2⟩ := hl y (List.mem_cons_self ..)
    rw [List.flatMap_cons, List.append_assoc, termText, List.cons_append, lines_cons, List.foldl_cons]
    refine yields_bind (st_term_next h (addLine_klass _ _) h2 h3 k1) ?_
    intro w1 h1
    rw [shut_term] at h1
    rw [lines_append]
    refine yields_bind (st_bodies y.2 h1 rfl h2 h3 k2) ?_
    intro w2 h2'
    exact ih y h2' h2 fun z hz => hl z (List.mem_cons_of_mem _ hz)

theorem terms_frame (xs : List (Text × List Line)) (dl : Frame) (h : dl.tail = []) :
    xs.foldl addTerm dl = { dl with pre := dl.pre ++ xs.flatMap fun x => element t!"dt" (words x.1) ++ element t!"dd" (shown x.2) } := by
  induction xs generalizing dl with
  | nil => simp
  | cons x xs ih =>
    rw [List.foldl_cons, ih _ rfl]
    simp [addTerm, h]

theorem st_terms_block {p : List Tok} (xs : List (Text × List Line)) (h : Stack w env [rootFrame p]) (hb : (Block.terms xs).Fit) :
    Yields (w.lines env ((Block.terms xs).write ++ [[]])) env [rootFrame (p ++ (Block.terms xs).html)] := by
  obtain ⟨h0, hx⟩ := hb
  cases xs with
  | nil => exact absurd rfl h0
  | cons x xs =>
    show Yields (w.lines env ((x :: xs).flatMap termText ++ [[]])) env _
    obtain ⟨k1, k2⟩ := hx x (List.mem_cons_self ..)
    rw [List.flatMap_cons, List.append_assoc, termText, List.cons_append, lines_cons]
    refine yields_bind (st_term_first h k1) ?_
    intro w1 h1
    rw [lines_append]
    refine yields_bind (st_bodies x.2 h1 rfl rfl rfl k2) ?_
    intro w2 h2
    have := st_terms x xs h2 rfl rfl fun y hy => hx y (List.mem_cons_of_mem _ hy)
    rw [← List.foldl_cons (f := addTerm), terms_frame _ _ rfl, toks_of (k := .definitionList) rfl] at this
    simpa [fresh, openToks, closeToks, Node.opens, Node.closes, element, Klass.tag, Frame.inner, words, Block.html] using this

end Bglib.Doc
