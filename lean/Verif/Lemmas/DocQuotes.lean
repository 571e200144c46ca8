import Verif.Lemmas.DocBlocks
/-
Quotations, citations, tables and terms.
-/
namespace Bglib.Doc
open Spec.Document

variable {w w' : Wiki} {env : Env}

theorem prep_blank {fs : List Frame} (h : opened [.citation] fs = false) : prep ' ' fs = fs := by
  simp [prep, leaveZ_closed h]

theorem prep_cited {fs : List Frame} (h : opened [.blockQuote, .definitionBody] fs = false) : prep '>' fs = fs := by
  simp [prep, leaveZ_closed h]

theorem fresh_under (k : Klass) : (fresh k).under = fresh k := by simp [fresh, Frame.under, Frame.inner, words]

theorem under_of {f : Frame} (h : f.tail = []) : f.under = f := by
  obtain ⟨k, x, p, t⟩ := f
  simp only at h
  subst h
  simp [Frame.under, Frame.inner, words]

theorem toks_of {f : Frame} {k : Klass} (h : f.klass = k) : f.toks = openToks k ++ f.inner ++ closeToks k := by rw [← h]; rfl

theorem shut_inner (f g : Frame) : (shut f g).inner = g.pre ++ f.toks := by simp [shut, Frame.inner, words]

/-! ### Quotations -/

theorem quoted_toks {l : Line} (h : Quoted l) : finditer linePatterns (t!"  " ++ write l) = (.quote, t!"  ", []) :: lineToks l := by
  apply toks_finditer
  have h0 := write_ne h.1 h.2.1
  have ht := toks_line (start := false) (t := []) (xs := []) h.1 (by simp) (by simp) quiet_nil calm_nil (toks_nil false)
  rw [List.append_nil, List.append_nil] at ht
  have hq := write_quiet h.1
  cases hw : write l with
  | nil => exact absurd hw h0
  | cons c u =>
    rw [hw] at ht hq
    have hc := h.2.2 c (by rw [hw]; rfl)
    refine toks_cons (by simp) (quote_first c u hc.1 ?_) rfl ht
    cases hi : itemAlts.starts c with
    | false => rfl
    | true =>
      exfalso
      rcases itemAlts_starts c hi with k | k | k | k | k | k
      · exact hc.2.1 k
      · exact hc.2.2.1 k
      · exact hc.2.2.2.1 k
      · exact hq c (List.mem_cons_self ..) ⟨Char.le_trans (by decide) k.1, Char.le_trans k.2 (by decide)⟩
      · exact hc.2.2.2.2.1 k
      · exact hc.2.2.2.2.2 k

theorem quoted_tame {l : Line} (h : Quoted l) : endsDefinition (t!"  " ++ write l) = false :=
  tame_ends (tame_append (tame_of _ (by decide)) (tame_write h.1))

theorem quote_there {f : Frame} {fs : List Frame} (h : Stack w env (f :: fs)) (h1 : opened [.definitionList] (f :: fs) = false)
    (h2 : opened [.blockQuote] (f :: fs) = true) : Yields w.quote env (f :: fs) := by
  have := at_ancestor [.definitionList] h.pos
  rw [if_neg (by rw [h1]; simp)] at this
  simp only [Wiki.quote, this, bind, Except.bind]
  exact st_there h h2

theorem quote_new {f : Frame} {fs : List Frame} (h : Stack w env (f :: fs)) (h1 : opened [.definitionList] (f :: fs) = false)
    (h2 : opened [.blockQuote] (f :: fs) = false) (h3 : f.klass.accepts .blockQuote = true) :
    Yields w.quote env (fresh .blockQuote :: f.under :: fs) := by
  have := at_ancestor [.definitionList] h.pos
  rw [if_neg (by rw [h1]; simp)] at this
  simp only [Wiki.quote, this, bind, Except.bind]
  exact st_startIfNone h h2 h3 (by simp) (fresh_good _ (by simp) (by simp))

theorem quote_item (w : Wiki) : w.item env (.quote, t!"  ", []) = w.quote := item_handle w env _ _ _ (by simp)

theorem open_of {f : Frame} {fs : List Frame} (h1 : takesStyle f.klass = true) (h2 : noStyle f.klass = true) {g : Frame} {gs : List Frame}
    (h : fs = g :: gs) (ho : ∀ x ∈ g :: gs, noStyle x.klass = true) : Open f fs := by
  subst h
  refine ⟨h1, ?_⟩
  intro x hx
  rcases List.mem_cons.1 hx with rfl | hx
  · exact h2
  · exact ho x hx

theorem free_div {d : Frame} {p : List Tok} (hd : d.klass = .div) : ∀ x ∈ [d, rootFrame p], noStyle x.klass = true := (open_div hd).free

theorem st_quote_more {f d : Frame} {p : List Tok} {l : Line} (h : Stack w env [f, d, rootFrame p]) (hf : f.klass = .blockQuote) (hd : d.klass = .div)
    (hl : Quoted l) : Yields (w.line env (t!"  " ++ write l)) env [addLine f l, d, rootFrame p] := by
  refine st_any h (within_two (by simp only [opened, List.any_cons, hf, hd]; rfl)) (quoted_tame hl) ?_
  intro w1 h1
  rw [show begun [f, d, rootFrame p] = [f, d, rootFrame p] from rfl, prep_blank (by simp only [opened, List.any_cons, hf, hd]; rfl)] at h1
  show Yields (w1.items env (finditer linePatterns (t!"  " ++ write l))) env _
  rw [quoted_toks hl, items_cons, quote_item]
  refine yields_bind (quote_there h1 (by simp only [opened, List.any_cons, hf, hd]; rfl) (by simp only [opened, List.any_cons, hf, hd]; rfl)) ?_
  intro w2 h2
  exact st_line l h2 (open_of (by rw [hf]; rfl) (by rw [hf]; rfl) rfl (free_div hd))

theorem st_quote_first {p : List Tok} {l : Line} (h : Stack w env [rootFrame p])
    (hl : Quoted l) : Yields (w.line env (t!"  " ++ write l)) env [addLine (fresh .blockQuote) l, fresh .div, rootFrame p] := by
  refine st_any h (within_root p) (quoted_tame hl) ?_
  intro w1 h1
  rw [begun_root, prep_blank rfl] at h1
  show Yields (w1.items env (finditer linePatterns (t!"  " ++ write l))) env _
  rw [quoted_toks hl, items_cons, quote_item]
  refine yields_bind (quote_new h1 rfl rfl rfl) ?_
  intro w2 h2
  rw [fresh_under] at h2
  exact st_line l h2 (open_of rfl rfl rfl (free_div rfl))

theorem st_quotes {f d : Frame} {p : List Tok} (ls : List Line) (h : Stack w env [f, d, rootFrame p]) (hf : f.klass = .blockQuote) (hd : d.klass = .div)
    (hl : ∀ l ∈ ls, Quoted l) :
    Yields (w.lines env (ls.map fun l => t!"  " ++ write l)) env [addLine f ls.flatten, d, rootFrame p] := by
  induction ls generalizing w f with
  | nil => exact yields_ok h
  | cons l ls ih =>
    rw [List.map_cons, lines_cons, List.flatten_cons, ← addLine_append]
    refine yields_bind (st_quote_more h hf hd (hl l (List.mem_cons_self ..))) ?_
    intro w1 h1
    exact ih h1 ((addLine_klass f l).trans hf) fun x hx => hl x (List.mem_cons_of_mem _ hx)

theorem st_quote_block {p : List Tok} (ls : List Line) (h : Stack w env [rootFrame p]) (hb : (Block.quote ls).Fit) :
    Yields (w.lines env ((Block.quote ls).write ++ [[]])) env [rootFrame (p ++ (Block.quote ls).html)] := by
  obtain ⟨h0, hx⟩ := hb
  cases ls with
  | nil => exact absurd rfl h0
  | cons l ls =>
    simp only [Block.write, List.map_cons, List.cons_append]
    rw [lines_cons]
    refine yields_bind (st_quote_first h (hx l (List.mem_cons_self ..))) ?_
    intro w1 h1
    rw [lines_append]
    refine yields_bind (st_quotes ls h1 (addLine_klass _ l) rfl fun y hy => hx y (List.mem_cons_of_mem _ hy)) ?_
    intro w2 h2
    rw [lines_one]
    have hk : (addLine (addLine (fresh .blockQuote) l) ls.flatten).klass = .blockQuote := (addLine_klass _ _).trans (addLine_klass _ _)
    have := st_blank (gs := []) h2 (by simp only [opened, List.any_cons, hk]; rfl) rfl
    have e : (collapse (addLine (addLine (fresh .blockQuote) l) ls.flatten) ([] ++ [fresh .div])).inner =
        element t!"blockquote" (element t!"p" (shown (l :: ls))) := by
      simp only [List.nil_append, collapse, shut_inner]
      rw [toks_of hk]
      simp only [addLine_append, addLine_inner]
      simp [fresh, openToks, closeToks, Node.opens, Node.closes, element, shown]
    rw [e] at this
    exact this

/-! ### Citations -/

theorem cited_toks (n : Nat) {l : Line} (h : Fit l) : finditer linePatterns (List.replicate (n + 1) '>' ++ ' ' :: write l) =
    (.citation, List.replicate (n + 1) '>' ++ [' '], []) :: lineToks l := by
  apply toks_finditer
  have ht := toks_line (start := false) (t := []) (xs := []) h (by simp) (by simp) quiet_nil calm_nil (toks_nil false)
  rw [List.append_nil, List.append_nil] at ht
  have e : List.replicate (n + 1) '>' ++ ' ' :: write l = (List.replicate (n + 1) '>' ++ [' ']) ++ write l := by simp
  rw [e]
  exact toks_cons (by simp) (cited_first n (write l)) rfl ht

theorem cited_tame (n : Nat) {l : Line} (h : Fit l) : Tame (List.replicate (n + 1) '>' ++ ' ' :: write l) := by
  refine tame_append ?_ (tame_append (a := [' ']) (tame_of _ (by decide)) (tame_write h))
  intro c hc
  rw [List.eq_of_mem_replicate hc]
  decide

theorem opened_append (ks : List Klass) (fs gs : List Frame) : opened ks (fs ++ gs) = (opened ks fs || opened ks gs) := by simp [opened]

theorem opened_replicate (ks : List Klass) (n : Nat) (f : Frame) (h : (ks.any fun c => f.klass.isA c) = false) :
    opened ks (List.replicate n f) = false := by
  simp only [opened, List.any_eq_false]
  intro g hg
  rw [List.eq_of_mem_replicate hg, h]
  simp

theorem opened_cons (ks : List Klass) (f : Frame) (fs : List Frame) : opened ks (f :: fs) = ((ks.any fun c => f.klass.isA c) || opened ks fs) := rfl

/-- Open citations. -/
def cites (n : Nat) : List Frame := List.replicate n (fresh .citation)

theorem st_times_cite {f : Frame} {fs : List Frame} (n : Nat) (h : Stack w env (f :: fs)) (hf : f.klass.accepts .citation = true) (ht : f.tail = []) :
    Yields (times (fun w => w.enter .citation) n w) env (cites n ++ f :: fs) := by
  induction n generalizing w f fs with
  | zero => exact yields_ok h
  | succ n ih =>
    simp only [times, bind]
    refine yields_bind (st_enter h hf (by simp) (fresh_good _ (by simp) (by simp))) ?_
    intro w1 h1
    have := ih h1 rfl rfl
    rw [under_of ht] at this
    rw [cites, List.replicate_succ', List.append_assoc]
    exact this

theorem cite_item (w : Wiki) (n : Nat) : w.item env (.citation, List.replicate (n + 1) '>' ++ [' '], []) =
    w.cite (List.replicate (n + 1) '>' ++ [' ']) := item_handle w env _ _ _ (by simp [List.replicate_succ])

theorem cite_indent (n : Nat) : ((List.replicate (n + 1) '>' ++ [' ']).takeWhile (· = '>')).length = n + 1 := by
  rw [List.takeWhile_append_of_pos]
  · simp
  · intro a ha; rw [List.eq_of_mem_replicate ha]; rfl

theorem open_cites {f d : Frame} {p : List Tok} (n : Nat) (hf : f.klass = .citationContent) (hd : d.klass = .div) : Open f (cites n ++ [d, rootFrame p]) := by
  refine ⟨by rw [hf]; rfl, ?_⟩
  intro g hg
  rcases List.mem_cons.1 hg with rfl | hg
  · rw [hf]; rfl
  · rcases List.mem_append.1 hg with hg | hg
    · rw [List.eq_of_mem_replicate hg]; rfl
    · exact free_div hd g hg

theorem opened_cites {ks : List Klass} {f d : Frame} {p : List Tok} (n : Nat) (hf : f.klass = .citationContent) (hd : d.klass = .div)
    (h : ([Klass.citationContent, .citation, .div, .root].all fun k => !(ks.any fun c => k.isA c)) = true) :
    opened ks (f :: cites n ++ [d, rootFrame p]) = false := by
  simp only [List.all_cons, List.all_nil, Bool.and_true, Bool.and_eq_true, Bool.not_eq_true'] at h
  rw [opened_append, opened_cons, hf, h.1, cites, opened_replicate ks n _ h.2.1, opened_div hd h.2.2.1 h.2.2.2]
  rfl

theorem begun_long {f g : Frame} {fs : List Frame} : begun (f :: g :: fs) = f :: g :: fs := rfl

theorem begun_cites {f d : Frame} {p : List Tok} (n : Nat) : begun (f :: cites n ++ [d, rootFrame p]) = f :: cites n ++ [d, rootFrame p] := by
  cases n <;> rfl

theorem div_cites {f d : Frame} {p : List Tok} (n : Nat) (hd : d.klass = .div) : opened [.div] (f :: cites n ++ [d, rootFrame p]) = true := by
  rw [opened_append]
  have : opened [.div] [d, rootFrame p] = true := by rw [opened_cons, hd]; rfl
  rw [this, Bool.or_true]

theorem st_cite_more {f d : Frame} {p : List Tok} {l : Line} (n : Nat) (h : Stack w env (f :: cites (n + 1) ++ [d, rootFrame p]))
    (hf : f.klass = .citationContent) (hd : d.klass = .div) (hl : Fit l) :
    Yields (w.line env (List.replicate (n + 1) '>' ++ ' ' :: write l)) env (addLine f l :: cites (n + 1) ++ [d, rootFrame p]) := by
  have he := tame_ends (cited_tame n hl)
  have ht := cited_toks n hl
  rw [List.replicate_succ, List.cons_append] at he ht ⊢
  refine st_any h (Or.inr ⟨div_cites _ hd, begun_cites _⟩) he ?_
  intro w1 h1
  rw [begun_cites, prep_cited (opened_cites _ hf hd (by decide))] at h1
  rw [ht, items_cons, ← List.replicate_succ, cite_item]
  refine yields_bind (fs := f :: cites (n + 1) ++ [d, rootFrame p]) ?_ ?_
  · have e : (f :: cites (n + 1) ++ [d, rootFrame p]).countP (fun g => g.klass.isA .citation) = n + 1 := by
      have e1 : (fresh .citation).klass.isA .citation = true := rfl
      have e2 : (rootFrame p).klass.isA .citation = false := rfl
      have e3 : Klass.isA .citationContent .citation = false := rfl
      have e4 : Klass.isA .div .citation = false := rfl
      simp only [List.cons_append, List.countP_cons, List.countP_append, cites, List.countP_replicate, hf, hd, e1, e2, e3, e4, List.countP_nil]
      simp
    simp only [Wiki.cite, at_nesting _ h1.pos, e, cite_indent, bind, Except.bind, Nat.sub_self, times]
    exact st_there h1 (by rw [List.cons_append, opened_cons, hf]; rfl)
  · intro w2 h2
    exact st_line l h2 (open_cites _ hf hd)

theorem st_cite_first {p : List Tok} {l : Line} (n : Nat) (h : Stack w env [rootFrame p]) (hl : Fit l) :
    Yields (w.line env (List.replicate (n + 1) '>' ++ ' ' :: write l)) env
      (addLine (fresh .citationContent) l :: cites (n + 1) ++ [fresh .div, rootFrame p]) := by
  have he := tame_ends (cited_tame n hl)
  have ht := cited_toks n hl
  rw [List.replicate_succ, List.cons_append] at he ht ⊢
  refine st_any h (within_root p) he ?_
  intro w1 h1
  rw [begun_root, prep_cited rfl] at h1
  rw [ht, items_cons, ← List.replicate_succ, cite_item]
  refine yields_bind (fs := fresh .citationContent :: cites (n + 1) ++ [fresh .div, rootFrame p]) ?_ ?_
  · have e : [fresh .div, rootFrame p].countP (fun g => g.klass.isA .citation) = 0 := rfl
    simp only [Wiki.cite, at_nesting _ h1.pos, e, cite_indent, bind]
    show Yields (Except.bind (times _ (0 - (n + 1)) w1) fun w => Except.bind (times _ (n + 1 - 0) w) fun w => w.startIfNone .citationContent) env _
    rw [Nat.zero_sub, Nat.sub_zero]
    show Yields (Except.bind (times _ (n + 1) w1) fun w => w.startIfNone .citationContent) env _
    refine yields_bind (st_times_cite (n + 1) h1 rfl rfl) ?_
    intro w2 h2
    have e2 : opened [.citationContent] (cites (n + 1) ++ [fresh .div, rootFrame p]) = false := by
      rw [opened_append, cites, opened_replicate _ _ _ rfl]; rfl
    have e3 : cites (n + 1) = fresh .citation :: cites n := rfl
    rw [e3, List.cons_append] at e2 h2 ⊢
    have := st_startIfNone h2 e2 rfl (by simp) (fresh_good .citationContent (by simp) (by simp))
    rw [fresh_under] at this
    exact this
  · intro w2 h2
    exact st_line l h2 (open_cites _ rfl rfl)

theorem st_cites {f d : Frame} {p : List Tok} (n : Nat) (ls : List Line) (h : Stack w env (f :: cites (n + 1) ++ [d, rootFrame p]))
    (hf : f.klass = .citationContent) (hd : d.klass = .div) (hl : ∀ l ∈ ls, Fit l) :
    Yields (w.lines env (ls.map fun l => List.replicate (n + 1) '>' ++ ' ' :: write l)) env
      (addLine f ls.flatten :: cites (n + 1) ++ [d, rootFrame p]) := by
  induction ls generalizing w f with
  | nil => exact yields_ok h
  | cons l ls ih =>
    rw [List.map_cons, lines_cons, List.flatten_cons, ← addLine_append]
    refine yields_bind (st_cite_more n h hf hd (hl l (List.mem_cons_self ..))) ?_
    intro w1 h1
    exact ih h1 ((addLine_klass f l).trans hf) fun x hx => hl x (List.mem_cons_of_mem _ hx)

theorem collapse_cites (n : Nat) (f d : Frame) (hd : d.tail = []) :
    (collapse f (cites n ++ [d])).inner = d.pre ++ (List.range n).foldr (fun _ => element t!"blockquote") f.toks := by
  induction n generalizing f with
  | zero => simp [cites, collapse, shut, Frame.inner, words]
  | succ n ih =>
    have e : cites (n + 1) = fresh .citation :: cites n := rfl
    rw [e, List.cons_append, collapse, ih, List.range_succ, List.foldr_append]
    congr 2
    rw [toks_of (k := .citation) rfl, shut_inner]
    simp [fresh, openToks, closeToks, Node.opens, Node.closes, element]

theorem st_cited_block {p : List Tok} (n : Nat) (ls : List Line) (h : Stack w env [rootFrame p]) (hb : (Block.cited n ls).Fit) :
    Yields (w.lines env ((Block.cited n ls).write ++ [[]])) env [rootFrame (p ++ (Block.cited n ls).html)] := by
  obtain ⟨h0, hx⟩ := hb
  cases ls with
  | nil => exact absurd rfl h0
  | cons l ls =>
    simp only [Block.write, List.map_cons, List.cons_append]
    rw [lines_cons]
    refine yields_bind (st_cite_first n h (hx l (List.mem_cons_self ..))) ?_
    intro w1 h1
    rw [lines_append]
    refine yields_bind (st_cites n ls h1 (addLine_klass _ l) rfl fun y hy => hx y (List.mem_cons_of_mem _ hy)) ?_
    intro w2 h2
    rw [lines_one]
    have hk : (addLine (addLine (fresh .citationContent) l) ls.flatten).klass = .citationContent := (addLine_klass _ _).trans (addLine_klass _ _)
    have := st_blank (gs := cites (n + 1)) h2 (by rw [opened_cons, hk, cites, opened_replicate _ _ _ rfl]; rfl) rfl
    have e : (addLine (addLine (fresh .citationContent) l) ls.flatten).toks = element t!"p" (shown (l :: ls)) := by
      rw [toks_of hk]
      simp only [addLine_append, addLine_inner]
      simp [fresh, openToks, closeToks, Node.opens, Node.closes, element, shown, Klass.tag]
    rw [collapse_cites _ _ _ rfl, e] at this
    exact this

end Bglib.Doc
