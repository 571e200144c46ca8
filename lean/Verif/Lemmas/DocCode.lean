import Verif.Lemmas.DocItems
/-
Blocks of program text, and whole documents.
-/
namespace Bglib.Doc
open Spec.Document

variable {w w' : Wiki} {env : Env}

theorem st_open {c : Char} {u : Text} {fs : List Frame} (h : Stack w env fs) (hw : Within fs) (he : endsDefinition (c :: u) = false) :
    ∃ w1, Stack w1 env (prep c (begun fs)) ∧ w.line env (c :: u) = w1.items env (finditer linePatterns (c :: u)) := by
  obtain ⟨w1, e1, h1⟩ := st_begin h hw
  have h2 : ∃ w2, w1.onlyIf (c ≠ ' ') (·.leave [.blockQuote, .definitionBody]) = .ok w2 ∧
      Stack w2 env (if c ≠ ' ' then leaveZ [.blockQuote, .definitionBody] (begun fs) else begun fs) := by
    by_cases hc : c = ' '
    · simp only [hc, Wiki.onlyIf, ne_eq, not_true_eq_false, decide_false, Bool.false_eq_true, if_false]
      exact ⟨w1, rfl, h1⟩
    · simp only [hc, Wiki.onlyIf, ne_eq, not_false_eq_true, decide_true, if_true]
      exact st_leave _ h1 (by decide)
  obtain ⟨w2, e2, h2⟩ := h2
  have h3 : ∃ w3, w2.onlyIf (c ≠ '>') (·.leave [.citation]) = .ok w3 ∧ Stack w3 env (prep c (begun fs)) := by
    by_cases hc : c = '>'
    · simp only [prep, hc, Wiki.onlyIf, ne_eq, not_true_eq_false, decide_false, Bool.false_eq_true, if_false] at h2 ⊢
      exact ⟨w2, rfl, h2⟩
    · simp only [prep, hc, Wiki.onlyIf, ne_eq, not_false_eq_true, decide_true, if_true] at h2 ⊢
      exact st_leave _ h2 (by decide)
  obtain ⟨w3, e3, h3⟩ := h3
  refine ⟨w3, h3, ?_⟩
  simp only [Wiki.line, st_block h, Wiki.parseLine, he, bind, e1, Except.bind, e2, e3]
  simp only [Wiki.onlyIf, Bool.false_eq_true, if_false]
  cases w3.items env (finditer linePatterns (c :: u)) <;> rfl

/-- In a block of program text. -/
structure InCode (w : Wiki) (env : Env) (p : List Tok) (buf : Text) (c N : Nat) (kids ck : List Nat) (t0 tc : Text) : Prop where
  len : w.doc.nodes.length = N + 1
  cur : w.doc.current = some N
  root : w.doc.nodes[0]? = some ⟨.root, none, kids ++ [c, N], t0⟩
  div : w.doc.nodes[c]? = some ⟨.div, some 0, ck, tc⟩
  code : w.doc.nodes[N]? = some ⟨.element, some c, [], []⟩
  pos : 0 < c
  lt : c < N
  before : Emits w env c 0 kids p
  empty : Emits w env N c ck []
  extra0 : w.extra 0 = none
  extraC : w.extra c = none
  extraN : w.extra N = some (.block buf false)
  side : ∀ x ∈ w.side, x.1 < N + 1

theorem code_toks : finditer linePatterns t!"{{{" = [(.preformatStart, t!"{{{", [])] := by rfl

theorem extra_cons (doc : Editor) (side : List (Nat × Extra)) (i j : Nat) (x : Extra) :
    Wiki.extra ⟨doc, (i, x) :: side⟩ j = if i = j then some x else Wiki.extra ⟨doc, side⟩ j := by
  simp only [Wiki.extra, List.find?_cons]
  by_cases h : i = j <;> simp [h]

theorem extra_doc (doc doc' : Editor) (side : List (Nat × Extra)) (j : Nat) : Wiki.extra ⟨doc, side⟩ j = Wiki.extra ⟨doc', side⟩ j := rfl

theorem code_open {p : List Tok} (h : Stack w env [rootFrame p]) :
    ∃ w' c N kids ck t0 tc, w.line env t!"{{{" = .ok w' ∧ InCode w' env p [] c N kids ck t0 tc := by
  obtain ⟨w1, h1, e1⟩ := st_open (c := '{') (u := t!"{{") h (within_root p) (by decide)
  rw [begun_root, prep_closed rfl] at h1
  rw [e1, show ('{' :: t!"{{") = t!"{{{" from rfl, code_toks, items_cons, item_handle _ _ _ _ _ (by simp)]
  obtain ⟨⟨c, hc, hf, n, hn, hk, hx, hkids, hb⟩, hs⟩ := h1.pos
  obtain ⟨nk, np, nc, nt⟩ := n
  simp only [fresh] at hk hx hkids
  cases np with
  | none => exact False.elim hb
  | some q =>
    obtain ⟨b1, b2, b3, m, kids, b4, b5, b6, b7, b8, b9⟩ := hb
    obtain ⟨mk, mp, mc, mt⟩ := m
    cases mp with
    | some r => exact False.elim b9
    | none =>
      have b9 : q = 0 := b9
      subst b9
      simp only [rootFrame] at b5 b6 b7 b8
      subst hk b5 b6
      have hlt := lt_of_get hn
      have hE : Emits w1 env w1.doc.nodes.length c nc [] := by
        have := kids_emits hkids
        simpa [Frame.inner, words] using this
      have hcl : w1.doc.climb (fun n => n.klass.accepts .element) (w1.doc.nodes.length + 1) w1.doc.current = .ok (some 0) := by
        have hl : ∃ k, w1.doc.nodes.length = k + 1 := ⟨w1.doc.nodes.length - 1, by omega⟩
        obtain ⟨k, hl⟩ := hl
        have a1 : Klass.div.accepts .element = false := by decide
        have a2 : Klass.root.accepts .element = true := by decide
        rw [hc, hl]
        simp only [Editor.climb, hn, a1, b4, a2, if_true, Bool.false_eq_true, if_false]
      have he : w1.handle env .preformatStart t!"{{{" [] = .ok ⟨{ (⟨pushed w1.doc.nodes 0 ⟨.element, some c, [], []⟩, some 0⟩ : Editor) with current := some w1.doc.nodes.length },
          (w1.doc.nodes.length, .block [] false) :: w1.side⟩ := by
        rw [hc] at hcl
        simp only [Wiki.handle, Wiki.enter, Editor.append, hcl, hc]
        rfl
      rw [he]
      have hst : ∀ j, j < w1.doc.nodes.length → j ≠ 0 → (pushed w1.doc.nodes 0 ⟨.element, some c, [], []⟩)[j]? = w1.doc.nodes[j]? :=
        fun j h1 h2 => pushed_other h2 h1
      have hex : ∀ d j, j < w1.doc.nodes.length → Wiki.extra ⟨d, (w1.doc.nodes.length, .block [] false) :: w1.side⟩ j = w1.extra j := by
        intro d j hj
        rw [extra_cons, if_neg (by omega)]
        rfl
      refine ⟨_, c, w1.doc.nodes.length, kids, nc, mt, nt, rfl, ?_⟩
      refine ⟨pushed_length .., rfl, ?_, ?_, pushed_last .., b1, hlt, ?_, ?_, ?_, ?_, ?_, ?_⟩
      · have := pushed_at (x := ⟨.element, some c, [], []⟩) b4
        simpa using this
      · exact (hst c hlt (by omega)).trans hn
      · exact emits_stable b8 fun j k1 k2 => ⟨hst j (by omega) (by omega), hex _ j (by omega)⟩
      · exact emits_stable hE fun j k1 k2 => ⟨hst j (by omega) (by omega), hex _ j (by omega)⟩
      · exact (hex _ 0 (by omega)).trans b7
      · exact (hex _ c hlt).trans hx
      · rw [extra_cons, if_pos rfl]
      · intro x hx
        rcases List.mem_cons.1 hx with rfl | hx
        · exact Nat.lt_succ_self _
        · have := hs x hx; omega

theorem code_line {p : List Tok} {buf : Text} {c N : Nat} {kids ck : List Nat} {t0 tc : Text} (h : InCode w env p buf c N kids ck t0 tc) (l : Text)
    (h1 : l ≠ t!"}}}") (h2 : l.take 2 ≠ t!"#!") :
    ∃ w', w.line env l = .ok w' ∧ InCode w' env p (buf ++ (l ++ ['\n'])) c N kids ck t0 tc := by
  refine ⟨{ w with side := (N, .block (buf ++ l ++ ['\n']) false) :: w.side }, ?_, ?_⟩
  · simp only [Wiki.line, Wiki.block, h.cur, h.extraN, Wiki.parseBlock, h1, h2, if_false, false_and]
  · have hex : ∀ j, j < N → Wiki.extra { w with side := (N, .block (buf ++ l ++ ['\n']) false) :: w.side } j = w.extra j := by
      intro j hj
      rw [extra_cons, if_neg (by omega)]
    refine ⟨h.len, h.cur, h.root, h.div, h.code, h.pos, h.lt, ?_, ?_, ?_, ?_, ?_, ?_⟩
    · exact emits_stable h.before fun j _ k2 => ⟨rfl, hex j (Nat.lt_trans k2 h.lt)⟩
    · exact emits_stable h.empty fun j _ k2 => ⟨rfl, hex j k2⟩
    · exact (hex 0 (by have := h.pos; have := h.lt; omega)).trans h.extra0
    · exact (hex c h.lt).trans h.extraC
    · rw [extra_cons, if_pos rfl, List.append_assoc]
    · intro x hx
      rcases List.mem_cons.1 hx with rfl | hx
      · exact Nat.lt_succ_self _
      · exact h.side x hx

theorem code_lines {p : List Tok} {buf : Text} {c N : Nat} {kids ck : List Nat} {t0 tc : Text} (ls : List Text) (h : InCode w env p buf c N kids ck t0 tc)
    (hl : ∀ l ∈ ls, l ≠ t!"}}}" ∧ l.take 2 ≠ t!"#!") :
    ∃ w', w.lines env ls = .ok w' ∧ InCode w' env p (buf ++ ls.flatMap (· ++ ['\n'])) c N kids ck t0 tc := by
  induction ls generalizing w buf with
  | nil => exact ⟨w, rfl, by simpa using h⟩
  | cons l ls ih =>
    obtain ⟨w1, e1, h1⟩ := code_line h l (hl l (List.mem_cons_self ..)).1 (hl l (List.mem_cons_self ..)).2
    obtain ⟨w2, e2, h2⟩ := ih h1 fun x hx => hl x (List.mem_cons_of_mem _ hx)
    refine ⟨w2, ?_, ?_⟩
    · rw [lines_cons, e1]; exact e2
    · rw [List.flatMap_cons, ← List.append_assoc]; exact h2

theorem code_close {p : List Tok} {buf : Text} {c N : Nat} {kids ck : List Nat} {t0 tc : Text} (h : InCode w env p buf c N kids ck t0 tc) :
    Yields (w.lines env [t!"}}}", []]) env
      [rootFrame (p ++ (element t!"div" [] ++ element t!"pre" [.text (escape buf)]))] := by
  have hex : ∀ (d : Editor) j, Wiki.extra ⟨d, w.side⟩ j = w.extra j := fun _ _ => rfl
  have e1 : w.line env t!"}}}" = .ok { w with doc := { w.doc with current := some c } } := by
    have a1 : ([Klass.element].any fun k => Klass.element.isA k) = true := by decide
    simp only [Wiki.line, Wiki.block, h.cur, h.extraN, Wiki.parseBlock, if_true, Wiki.leave, Editor.climb, h.code, a1, Editor.parentOf, Option.bind_some]
  have e2 : Wiki.line { w with doc := { w.doc with current := some c } } env [] = .ok { w with doc := { w.doc with current := some 0 } } := by
    have a1 : ([Klass.div].any fun k => Klass.div.isA k) = true := by decide
    have hb : Wiki.block { w with doc := { w.doc with current := some c } } = none := by
      simp only [Wiki.block]
      have : Wiki.extra { w with doc := { w.doc with current := some c } } c = none := h.extraC
      rw [this]
    simp only [Wiki.line, hb, Wiki.parseLine, Wiki.leave, Editor.climb, h.div, a1, if_true, bind, Except.bind, pure, Except.pure, Editor.done]
  rw [lines_cons, e1]
  show Yields (Wiki.lines _ env [[]]) env _
  rw [lines_one, e2]
  refine yields_ok ⟨⟨⟨0, rfl, ⟨by simp [rootFrame], by simp [rootFrame], Or.inl rfl⟩, _, h.root, rfl, h.extra0, ?_, rfl⟩, ?_⟩, rfl⟩
  · refine Or.inl ⟨rfl, ?_, ?_⟩
    · refine emits_append (emits_mono (emits_stable h.before fun j _ _ => ⟨rfl, rfl⟩) ?_) ?_
      · show c ≤ w.doc.nodes.length
        have := h.lt; rw [h.len]; omega
      · have hN : Emits { w with doc := { w.doc with current := some 0 } } env w.doc.nodes.length 0 [N]
            ([] ++ [] ++ [.opening t!"pre", .text (escape buf), .closing t!"pre"] ++ []) := by
          refine .cons 0 N [] _ _ _ _ _ ?_ ?_ h.code ?_ ?_ ?_ (.nil _) (.nil _)
          · have := h.pos; have := h.lt; omega
          · rw [h.len]; omega
          · rw [show Wiki.extra { w with doc := { w.doc with current := some 0 } } N = some (.block buf false) from h.extraN]; simp
          · simp only [Wiki.opens, show Wiki.extra { w with doc := { w.doc with current := some 0 } } N = some (.block buf false) from h.extraN]
            rfl
          · simp only [Wiki.closes, show Wiki.extra { w with doc := { w.doc with current := some 0 } } N = some (.block buf false) from h.extraN]
            simp
        have hC := Emits.cons (w := { w with doc := { w.doc with current := some 0 } }) (env := env) (hi := w.doc.nodes.length) 0 c [N]
          ⟨.div, some 0, ck, tc⟩ [.opening t!"div"] [] [.closing t!"div"] _ h.pos (by have := h.lt; rw [h.len]; omega) h.div
          (by rw [show Wiki.extra { w with doc := { w.doc with current := some 0 } } c = none from h.extraC]; simp)
          (by simp only [Wiki.opens, show Wiki.extra { w with doc := { w.doc with current := some 0 } } c = none from h.extraC]; rfl)
          (by simp only [Wiki.closes, show Wiki.extra { w with doc := { w.doc with current := some 0 } } c = none from h.extraC]; rfl)
          (emits_mono (emits_stable h.empty fun j _ _ => ⟨rfl, rfl⟩) (by rw [h.len]; omega)) hN
        exact hC
    · intro j hj
      have : (kids ++ [c, N]).getLast? = some N := by simp
      rw [this] at hj
      cases hj
      exact ⟨_, h.code, by simp⟩
  · intro x hx
    show x.1 < w.doc.nodes.length
    rw [h.len]
    exact h.side x hx

theorem st_code_block {p : List Tok} (ls : List Text) (h : Stack w env [rootFrame p]) (hb : (Block.code ls).Fit) :
    Yields (w.lines env ((Block.code ls).write ++ [[]])) env [rootFrame (p ++ (Block.code ls).html)] := by
  obtain ⟨w1, c, N, kids, ck, t0, tc, e1, h1⟩ := code_open h
  obtain ⟨w2, e2, h2⟩ := code_lines ls h1 fun l hl => ⟨(hb l hl).1, (hb l hl).2.1⟩
  have e : (Block.code ls).write ++ [[]] = t!"{{{" :: (ls ++ [t!"}}}", []]) := by simp [Block.write]
  rw [e, lines_cons, e1]
  show Yields (w1.lines env _) env _
  rw [lines_append, e2]
  exact code_close h2

/-! ### Whole documents -/

theorem st_any_block {p : List Tok} (b : Block) (h : Stack w env [rootFrame p]) (hb : b.Fit) :
    Yields (w.lines env (b.write ++ [[]])) env [rootFrame (p ++ b.html)] := by
  cases b with
  | text parts => exact st_text_block parts h hb
  | items l => exact st_items_block l h hb
  | quote ls => exact st_quote_block ls h hb
  | cited n ls => exact st_cited_block n ls h hb
  | table rows => exact st_table_block rows h hb
  | terms l => exact st_terms_block l h hb
  | code ls => exact st_code_block ls h hb

theorem st_blocks {p : List Tok} (bs : List Block) (h : Stack w env [rootFrame p]) (hb : ∀ b ∈ bs, b.Fit) :
    Yields (w.lines env (bs.flatMap fun b => b.write ++ [[]])) env [rootFrame (p ++ html bs)] := by
  induction bs generalizing w p with
  | nil => exact ⟨w, rfl, by simpa [html] using h⟩
  | cons b bs ih =>
    rw [List.flatMap_cons, lines_append]
    refine yields_bind (st_any_block b h (hb b (List.mem_cons_self ..))) ?_
    intro w1 h1
    have := ih h1 fun x hx => hb x (List.mem_cons_of_mem _ hx)
    rw [List.append_assoc] at this
    exact this

theorem splitLines_line (l acc r : Text) (h : '\n' ∉ l ∧ '\r' ∉ l) : splitLines acc (l ++ '\n' :: r) = (acc.reverse ++ l) :: splitLines [] r := by
  induction l generalizing acc with
  | nil => cases acc <;> simp [splitLines]
  | cons c l ih =>
    have h1 : c ≠ '\n' := fun e => h.1 (by simp [e])
    have h2 : c ≠ '\r' := fun e => h.2 (by simp [e])
    have := ih (c :: acc) ⟨fun k => h.1 (List.mem_cons_of_mem _ k), fun k => h.2 (List.mem_cons_of_mem _ k)⟩
    rw [List.cons_append, splitLines.eq_def]
    split
    · next e => cases e
    · next e => cases e
    · next e => exact absurd (List.cons.inj e).1 h2
    · next e => exact absurd (List.cons.inj e).1 h1
    · next e => exact absurd (List.cons.inj e).1 h2
    · next e =>
      obtain ⟨rfl, rfl⟩ := List.cons.inj e
      rw [this]
      simp

theorem splitLines_lines (ls : List Text) (h : ∀ l ∈ ls, '\n' ∉ l ∧ '\r' ∉ l) : splitLines [] (ls.flatMap (· ++ ['\n'])) = ls := by
  induction ls with
  | nil => rfl
  | cons l ls ih =>
    rw [List.flatMap_cons, List.append_assoc]
    show splitLines [] (l ++ '\n' :: ls.flatMap (· ++ ['\n'])) = _
    rw [splitLines_line l [] _ (h l (List.mem_cons_self ..)), ih fun x hx => h x (List.mem_cons_of_mem _ hx)]
    rfl

theorem tame_breaks {t : Text} (h : Tame t) : '\n' ∉ t ∧ '\r' ∉ t := ⟨fun k => (h _ k).2.1 rfl, fun k => (h _ k).2.2 rfl⟩

theorem items_breaks (it : Items) (n : Nat) (sign : Bool) (h : it.Fit sign) : ∀ t ∈ it.write (n + 1), '\n' ∉ t ∧ '\r' ∉ t := by
  induction it generalizing n sign with
  | none => intro t ht; cases ht
  | item m l ls below next ihb ihn =>
    obtain ⟨_, h1, h2, h3, h4⟩ := h
    intro t ht
    rw [Items.write, head_write, List.append_assoc, List.cons_append] at ht
    rcases List.mem_cons.1 ht with rfl | ht
    · exact tame_breaks (item_tame n m h1)
    · rcases List.mem_append.1 ht with ht | ht
      · obtain ⟨x, hx, rfl⟩ := List.mem_map.1 ht
        exact tame_breaks (tame_write (h2 x hx).1)
      · rcases List.mem_append.1 ht with ht | ht
        · exact ihb (n + 1) _ h3 t ht
        · exact ihn n _ h4 t ht

theorem block_breaks (b : Block) (h : b.Fit) : ∀ t ∈ b.write, '\n' ∉ t ∧ '\r' ∉ t := by
  intro t ht
  cases b with
  | text parts =>
    obtain ⟨x, hx, rfl⟩ := List.mem_map.1 ht
    have hf := h.2 x hx
    cases x with
    | line l => exact tame_breaks (tame_write hf.1)
    | heading n l => exact tame_breaks (heading_tame hf)
  | items l => exact items_breaks l 0 _ h.2 t ht
  | quote ls =>
    obtain ⟨x, hx, rfl⟩ := List.mem_map.1 ht
    exact tame_breaks (tame_append (tame_of _ (by decide)) (tame_write (h.2 x hx).1))
  | cited n ls =>
    obtain ⟨x, hx, rfl⟩ := List.mem_map.1 ht
    exact tame_breaks (cited_tame n (h.2 x hx))
  | table rows =>
    obtain ⟨x, hx, rfl⟩ := List.mem_map.1 ht
    exact tame_breaks (row_tame (h.2 x hx).2)
  | terms l =>
    obtain ⟨x, hx, ht⟩ := List.mem_flatMap.1 ht
    obtain ⟨h1, h2⟩ := h.2 x hx
    rcases List.mem_cons.1 ht with rfl | ht
    · have := tame_breaks (tame_plain h1.1.2)
      exact ⟨by simpa [Piece.text] using this.1, by simpa [Piece.text] using this.2⟩
    · obtain ⟨y, hy, rfl⟩ := List.mem_map.1 ht
      exact tame_breaks (tame_append (tame_of _ (by decide)) (tame_write (h2 y hy).1))
  | code ls =>
    rw [Block.write, List.cons_append] at ht
    rcases List.mem_cons.1 ht with rfl | ht
    · decide
    · rcases List.mem_append.1 ht with ht | ht
      · exact (h t ht).2.2
      · rw [List.mem_singleton.1 ht]; decide

/-- A document is shown as it should be. -/
theorem document_shown (env : Env) (bs : List Block) (h : ∀ b ∈ bs, b.Fit) : format env (text bs) = .ok (html bs) := by
  have e : splitLines [] (text bs) = bs.flatMap fun b => b.write ++ [[]] := by
    apply splitLines_lines
    intro t ht
    obtain ⟨b, hb, ht⟩ := List.mem_flatMap.1 ht
    rcases List.mem_append.1 ht with ht | ht
    · exact block_breaks b (h b hb) t ht
    · rw [List.mem_singleton.1 ht]; decide
  have h0 : Stack Wiki.start env [rootFrame []] := ⟨at_start, rfl⟩
  obtain ⟨w, e1, h1⟩ := st_blocks bs h0 h
  simp only [format, Wiki.parse, e, e1, bind, Except.bind]
  rw [at_html h1.pos rfl]
  simp [rootFrame, Frame.inner, words]

end Bglib.Doc
