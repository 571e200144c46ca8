import Verif.Spec.Contents
import Verif.Lemmas.DocEdit
import Verif.Lemmas.WikiLinks
import Verif.Lemmas.WikiFormatter
/-
The HTML of tables of contents.
-/
namespace Bglib.Doc
open Spec.Document Spec.Contents

variable {w w' : Wiki} {env : Env}

/-- Texts without anything between them. -/
def textToks (ts : List Text) : List Tok := ts.flatMap fun t => [.text t, .text ['\n']]

/-- As `AtPos`, but text may follow text. -/
def LoosePos (w : Wiki) (env : Env) (c : Nat) (f : Frame) (fs : List Frame) : Prop :=
  f.good ∧ f.tail = [] ∧ ∃ n, w.doc.nodes[c]? = some n ∧ n.klass = f.klass ∧ w.extra c = f.extra ∧
    Emits w env w.doc.nodes.length c n.children f.pre ∧ Below w env c n.parent fs

theorem loose_close {c : Nat} {f g : Frame} {gs : List Frame} (h : LoosePos w env c f (g :: gs)) :
    ∃ n p, w.doc.nodes[c]? = some n ∧ n.parent = some p ∧ p < c ∧ AtPos w env p (shut f g) gs := by
  obtain ⟨hf, htl, n, hn, hk, hx, hkids, hb⟩ := h
  obtain ⟨nk, np, nc, nt⟩ := n
  cases np with
  | none => exact False.elim hb
  | some p =>
    obtain ⟨h1, h2, h3, m, kids, h4, h5, h6, h7, h8, h9⟩ := hb
    have hc : c < w.doc.nodes.length := lt_of_get hn
    refine ⟨_, p, hn, rfl, h1, h3, m, h4, h5, h7, ?_, h9⟩
    refine Or.inl ⟨rfl, ?_, ?_⟩
    · rw [h6]
      refine emits_append (emits_mono h8 (Nat.le_of_lt hc)) ?_
      have := Emits.cons (env := env) (hi := w.doc.nodes.length) p c [] _ _ _ _ _ h1 hc hn
        (by rw [hx]; rcases hf.2.2 with h | h | ⟨l, h⟩ <;> rw [h] <;> simp) (good_opens hf hk hx) (good_closes hf hk hx) hkids (.nil p)
      simpa [Frame.toks, Frame.inner, htl, words] using this
    · intro j hj
      rw [h6, List.getLast?_concat] at hj
      cases hj
      exact ⟨_, hn, by rw [hk]; exact hf.1⟩

theorem loose_texts (ts : List Text) {c : Nat} {f : Frame} {fs : List Frame} (hc : w.doc.current = some c) (hs : w.side = [])
    (h : LoosePos w env c f fs) :
    ∃ w', w.addTexts ts = .ok w' ∧ w'.doc.current = some c ∧ w'.side = [] ∧ LoosePos w' env c { f with pre := f.pre ++ textToks ts } fs := by
  induction ts generalizing w f with
  | nil => exact ⟨w, rfl, hc, hs, by simpa [textToks] using h⟩
  | cons t ts ih =>
    obtain ⟨hf, htl, n, hn, hk, hx, hkids, hb⟩ := h
    have hlt := lt_of_get hn
    have hex : ∀ (nodes : List Node) (j : Nat), (⟨⟨nodes, some c⟩, []⟩ : Wiki).extra j = w.extra j := by
      intro nodes j; simp [Wiki.extra, hs]
    have hnone : ∀ j, w.extra j = none := by intro j; simp [Wiki.extra, hs]
    have step : LoosePos ⟨⟨pushed w.doc.nodes c ⟨.text, some c, [], t⟩, some c⟩, []⟩ env c
        { f with pre := f.pre ++ [.text t, .text ['\n']] } fs := by
      refine ⟨hf, htl, _, pushed_at hn, hk, (hex _ _).trans hx, ?_, ?_⟩
      · refine emits_append (emits_mono (hi := w.doc.nodes.length) ?_ (by simp [pushed_length])) ?_
        · exact emits_stable hkids fun j k1 k2 => ⟨pushed_other (by omega) k2, hex _ _⟩
        · have := Emits.cons (w := ⟨⟨pushed w.doc.nodes c ⟨.text, some c, [], t⟩, some c⟩, []⟩) (env := env)
            (hi := (pushed w.doc.nodes c ⟨.text, some c, [], t⟩).length) c w.doc.nodes.length [] ⟨.text, some c, [], t⟩ [.text t] [] [.text ['\n']] []
            hlt (by simp [pushed_length]) (pushed_last _ _ _) (by rw [hex, hnone]; simp)
            (by simp only [Wiki.opens, hex, hnone]; rfl) (by simp only [Wiki.closes, hex, hnone]; rfl) (.nil _) (.nil _)
          simpa using this
      · exact below_stable hb fun j hj => ⟨pushed_other (by omega) (by omega), hex _ _⟩
    obtain ⟨w', e1, e2, e3, e4⟩ := ih (w := ⟨⟨pushed w.doc.nodes c ⟨.text, some c, [], t⟩, some c⟩, []⟩) rfl rfl step
    refine ⟨w', ?_, e2, e3, ?_⟩
    · rw [← e1]
      simp only [Wiki.addTexts, hc, hs]
      rfl
    · simpa [textToks] using e4

theorem at_intro {c : Nat} {f : Frame} {fs : List Frame} (hc : w.doc.current = some c) (h : AtPos w env c f fs)
    (hs : ∀ x ∈ w.side, x.1 < w.doc.nodes.length) : At w env (f :: fs) := ⟨⟨c, hc, h⟩, hs⟩

/-- What has been written of open elements. -/
def sofar : List Frame → List Tok
  | [] => []
  | f :: fs => sofar fs ++ openToks f.klass ++ f.inner

theorem sofar_shut (f g : Frame) (gs : List Frame) (h : g.tail = []) :
    sofar (shut f g :: gs) = sofar (f :: g :: gs) ++ closeToks f.klass := by
  simp [sofar, shut, Frame.inner, Frame.toks, h, words]

abbrev numeric : Klass := .list (some .numeric)

/-- Inside `m + 1` lists, with this written. -/
def InLists (w : Wiki) (env : Env) (m : Nat) (t : List Tok) : Prop :=
  w.side = [] ∧ ∃ fs : List Frame, fs.length = m + 1 ∧ (∀ f ∈ fs, f.klass = numeric ∧ f.tail = []) ∧ At w env (fs ++ [⟨.root, none, [], []⟩]) ∧
    sofar (fs ++ [⟨.root, none, [], []⟩]) = t

theorem side_enter {k : Klass} (h : w.enter k = .ok w') : w'.side = w.side := by
  unfold Wiki.enter at h
  split at h
  · cases h
  · cases h; rfl

theorem side_leave {ks : List Klass} (h : w.leave ks = .ok w') : w'.side = w.side ∧ w'.doc.nodes = w.doc.nodes := by
  unfold Wiki.leave at h
  split at h
  · cases h
  · cases h; exact ⟨rfl, rfl⟩
  · cases h; exact ⟨rfl, rfl⟩

theorem lists_enter {m : Nat} {t : List Tok} (h : InLists w env m t) :
    ∃ w', w.enter numeric = .ok w' ∧ InLists w' env (m + 1) (t ++ [.opening t!"ol"]) := by
  obtain ⟨hs, fs, h1, h2, h3, h4⟩ := h
  cases fs with
  | nil => simp at h1
  | cons f fs =>
    have hf := h2 f (by simp)
    obtain ⟨w', e1, e2⟩ := at_enter (k := numeric) (x := none) h3 (by rw [hf.1]; decide) (by decide) ⟨by simp [numeric], by simp [numeric], Or.inl rfl⟩
    have hin : f.inner = f.pre := by simp [Frame.inner, hf.2, words]
    refine ⟨w', e1, (side_enter e1).trans hs, ⟨numeric, none, [], []⟩ :: { f with pre := f.inner, tail := [] } :: fs, by simpa using h1, ?_, e2, ?_⟩
    · intro g hg
      simp only [List.mem_cons] at hg
      rcases hg with rfl | rfl | hg
      · exact ⟨rfl, rfl⟩
      · exact ⟨hf.1, rfl⟩
      · exact h2 g (by simp [hg])
    · rw [← h4]
      simp [sofar, Frame.inner, words, hin, hf.2, openToks, Node.opens, Design.tag]

theorem lists_leave {m : Nat} {t : List Tok} (h : InLists w env (m + 1) t) :
    ∃ w', w.leave [.list none] = .ok w' ∧ InLists w' env m (t ++ [.closing t!"ol"]) := by
  obtain ⟨hs, fs, h1, h2, h3, h4⟩ := h
  match fs, h1 with
  | f :: g :: fs, h1 =>
    have hf := h2 f (by simp)
    have hg := h2 g (by simp)
    obtain ⟨w', e1, e2⟩ := at_leave [.list none] h3 (by
      intro r hr
      rw [List.getLast?_concat] at hr
      cases hr; decide)
    rw [List.cons_append, List.cons_append, leaveZ_self (by rw [hf.1]; decide)] at e2
    refine ⟨w', e1, (side_leave e1).1.trans hs, shut f g :: fs, by simpa using h1, ?_, e2, ?_⟩
    · intro x hx
      rcases List.mem_cons.1 hx with rfl | hx
      · exact ⟨hg.1, rfl⟩
      · exact h2 x (by simp [hx])
    · rw [List.cons_append, sofar_shut _ _ _ hg.2, ← h4, hf.1]
      simp [closeToks, Node.closes, Design.tag]

theorem lists_enters (n : Nat) {m : Nat} {t : List Tok} (h : InLists w env m t) :
    ∃ w', times (fun w => w.enter numeric) n w = .ok w' ∧ InLists w' env (m + n) (t ++ List.replicate n (.opening t!"ol")) := by
  induction n generalizing w m t with
  | zero => exact ⟨w, rfl, by simpa using h⟩
  | succ n ih =>
    obtain ⟨w1, e1, e2⟩ := lists_enter h
    obtain ⟨w2, f1, f2⟩ := ih e2
    refine ⟨w2, by simp only [times, e1, bind, Except.bind]; exact f1, ?_⟩
    rw [show m + (n + 1) = m + 1 + n by omega]
    simpa [List.replicate_succ] using f2

theorem lists_leaves (n : Nat) {m : Nat} {t : List Tok} (h : InLists w env (m + n) t) :
    ∃ w', times (fun w => w.leave [.list none]) n w = .ok w' ∧ InLists w' env m (t ++ List.replicate n (.closing t!"ol")) := by
  induction n generalizing w t with
  | zero => exact ⟨w, rfl, by simpa using h⟩
  | succ n ih =>
    obtain ⟨w1, e1, e2⟩ := lists_leave h
    obtain ⟨w2, f1, f2⟩ := ih e2
    refine ⟨w2, by simp only [times, e1, bind, Except.bind]; exact f1, ?_⟩
    simpa [List.replicate_succ] using f2

/-- The link of an item. -/
def itemToks (ts : List Text) : List Tok := element t!"li" (element t!"a" (textToks ts))

theorem lists_item (l : List (Option Text)) {m : Nat} {t : List Tok} (h : InLists w env m t) :
    ∃ w', w.tocItem l = .ok w' ∧ InLists w' env m (t ++ itemToks (l.filterMap id)) := by
  obtain ⟨hs, fs, h1, h2, h3, h4⟩ := h
  cases fs with
  | nil => simp at h1
  | cons f fs =>
    have hf := h2 f (by simp)
    have hin : f.inner = f.pre := by simp [Frame.inner, hf.2, words]
    obtain ⟨w1, a1, a2⟩ := at_enter (k := .itemize) (x := none) h3 (by rw [hf.1]; decide) (by decide) ⟨by simp, by simp, Or.inl rfl⟩
    obtain ⟨w2, b1, b2⟩ := at_enter (k := .anchor) (x := none) a2 (by decide) (by decide) ⟨by simp, by simp, Or.inl rfl⟩
    have hs2 : w2.side = [] := (side_enter b1).trans ((side_enter a1).trans hs)
    obtain ⟨⟨c, hc, hg, n, hn, hk, hx, hkids, hb⟩, _⟩ := b2
    have hl : LoosePos w2 env c ⟨.anchor, none, [], []⟩ _ := ⟨hg, rfl, n, hn, hk, hx, by simpa [Frame.inner, words] using kids_emits hkids, hb⟩
    obtain ⟨w3, c1, c2, c3, c4⟩ := loose_texts (l.filterMap id) hc hs2 hl
    have hcl := loose_close c4
    obtain ⟨n3, p, d1, d2, _, d4⟩ := hcl
    have hn3 := c4.2.2
    obtain ⟨n4, hn4, hk4, _⟩ := hn3
    have hlv : w3.leave [.anchor] = .ok { w3 with doc := { w3.doc with current := some p } } := by
      rw [d1] at hn4
      cases hn4
      simp only [Wiki.leave, c2, Editor.climb, d1, hk4]
      rw [if_pos (by decide)]
      simp only [Editor.parentOf, d1, Option.bind_some, d2]
    have h5 := at_intro (w := { w3 with doc := { w3.doc with current := some p } }) rfl (pos_goto d4) (by simp [c3])
    obtain ⟨w5, g1, g2⟩ := at_leave [.itemize] h5 (by
      intro r hr
      have : r = ⟨.root, none, [], []⟩ := by
        rw [List.getLast?_cons_cons, List.append_eq, ← List.cons_append, List.getLast?_concat] at hr
        exact (Option.some.inj hr).symm
      rw [this]; decide)
    rw [leaveZ_self (by rfl)] at g2
    refine ⟨w5, ?_, (side_leave g1).1.trans c3, _ :: fs, by simpa using h1, ?_, g2, ?_⟩
    · simp only [Wiki.tocItem, a1, b1, c1, hlv, bind, Except.bind]
      exact g1
    · intro x hx
      rcases List.mem_cons.1 hx with rfl | hx
      · exact ⟨hf.1, rfl⟩
      · exact h2 x (by simp [hx])
    · rw [← h4]
      simp [sofar, shut, Frame.inner, Frame.toks, words, hf.2, openToks, closeToks, Node.opens, Node.closes, Klass.tag, itemToks, element]

/-- The entries of a table of contents inside `m + 1` lists. -/
def entryToks (m : Nat) : List (Nat × List (Option Text)) → List Tok
  | [] => List.replicate m (.closing t!"ol")
  | h :: hs => List.replicate (h.1 - m) (.opening t!"ol") ++ List.replicate (m - h.1) (.closing t!"ol") ++
      itemToks (h.2.filterMap id) ++ entryToks h.1 hs

theorem lists_entries (hs : List (Nat × List (Option Text))) {m : Nat} {t : List Tok} (h : InLists w env m t) :
    ∃ w' n, w.tocEntries m hs = .ok w' ∧ ∃ u, InLists w' env n u ∧ u ++ List.replicate n (.closing t!"ol") = t ++ entryToks m hs := by
  induction hs generalizing w m t with
  | nil => exact ⟨w, m, rfl, t, h, rfl⟩
  | cons x hs ih =>
    have key : ∃ w1, w.matchNesting m x.1 = .ok w1 ∧
        InLists w1 env x.1 (t ++ List.replicate (x.1 - m) (.opening t!"ol") ++ List.replicate (m - x.1) (.closing t!"ol")) := by
      obtain ⟨w1, e1, e2⟩ := lists_enters (x.1 - m) h
      rw [show m + (x.1 - m) = x.1 + (m - x.1) by omega] at e2
      obtain ⟨w2, f1, f2⟩ := lists_leaves (m - x.1) e2
      exact ⟨w2, by simp only [Wiki.matchNesting, bind, Except.bind]; rw [show times (fun w => w.enter (.list (some .numeric))) (x.1 - m) w = .ok w1 from e1]; exact f1, f2⟩
    obtain ⟨w1, e1, e2⟩ := key
    obtain ⟨w2, f1, f2⟩ := lists_item x.2 e2
    obtain ⟨w3, n, g1, u, g2, g3⟩ := ih f2
    refine ⟨w3, n, ?_, u, g2, by rw [g3]; simp [entryToks]⟩
    have hcur : ∃ d, w1.doc.currentKlass = some (.list d) := by
      obtain ⟨_, fs, h1, h2, h3, _⟩ := e2
      cases fs with
      | nil => simp at h1
      | cons f fs =>
        obtain ⟨⟨c, hc, hg, n, hn, hk, _⟩, _⟩ := h3
        refine ⟨some .numeric, ?_⟩
        simp only [Editor.currentKlass, hc, Option.bind_some, hn, Option.map_some, hk, (h2 f (by simp)).1]
    obtain ⟨d, hd⟩ := hcur
    simp only [Wiki.tocEntries, Wiki.tocEntry, e1, hd, f1, g1, bind, Except.bind]

/-- Without anything kept beside the nodes the HTML is that of the editor. -/
theorem accept_plain (hs : w.side = []) (fuel i : Nat) : w.accept env fuel i = w.doc.accept fuel i := by
  induction fuel generalizing i with
  | zero => rfl
  | succ fuel ih =>
    have hx : ∀ j, w.extra j = none := by intro j; simp [Wiki.extra, hs]
    unfold Wiki.accept Editor.accept
    cases w.doc.nodes[i]? with
    | none => rfl
    | some n =>
      dsimp only
      have : w.accept env fuel = w.doc.accept fuel := funext ih
      simp only [Wiki.opens, Wiki.closes, hx, this, bind, Except.bind, pure, Except.pure]
      cases n.opens with
      | error e => rfl
      | ok a =>
        dsimp only
        cases acceptAll (w.doc.accept fuel) n.children with
        | error e => rfl
        | ok b =>
          dsimp only
          cases n.closes <;> rfl

theorem toc_entryToks (e : Editor) (h : ∀ h ∈ e.headings, none ∉ h.2) : tocHtml e = .ok (element t!"ol" (entryToks 0 e.headings)) := by
  obtain ⟨w1, a1, a2⟩ := at_enter (env := {}) (k := numeric) (x := none) at_start (by decide) (by decide) ⟨by simp [numeric], by simp [numeric], Or.inl rfl⟩
  have h0 : InLists w1 {} 0 [.opening t!"ol"] := by
    refine ⟨side_enter a1, [_], rfl, ?_, a2, ?_⟩
    · intro f hf; simp at hf; subst hf; exact ⟨rfl, rfl⟩
    · simp [sofar, Frame.inner, words, openToks, Node.opens, Design.tag, Klass.tag]
  obtain ⟨w2, n, b1, u, b2, b3⟩ := lists_entries e.headings h0
  rw [show n = 0 + n by omega] at b2
  obtain ⟨w3, c1, c2⟩ := lists_leaves n b2
  obtain ⟨hs, fs, d1, d2, d3, d4⟩ := c2
  match fs, d1 with
  | [f], _ =>
    have hf := d2 f (by simp)
    obtain ⟨w4, e1, e2⟩ := at_leave [.list none] d3 (by
      intro r hr
      rw [List.getLast?_concat] at hr
      cases hr; decide)
    rw [List.singleton_append, leaveZ_self (by rw [hf.1]; decide)] at e2
    have e3 := at_html e2 rfl
    have hn : w4.doc.nodes = w2.doc.nodes := by
      rw [(side_leave e1).2]
      have : ∀ k (v v' : Wiki), times (fun w => w.leave [.list none]) k v = .ok v' → v'.doc.nodes = v.doc.nodes := by
        intro k
        induction k with
        | zero => intro v v' h; cases h; rfl
        | succ k ih =>
          intro v v' h
          simp only [times, bind, Except.bind] at h
          split at h
          · cases h
          · next v1 h1 => exact (ih _ _ h).trans (side_leave h1).2
      exact this _ _ _ c1
    have hany : e.headings.any (fun h => h.2.any Option.isNone) = false := by
      rw [List.any_eq_false]
      intro x hx hh
      obtain ⟨o, ho1, ho2⟩ := List.any_eq_true.1 hh
      cases o with
      | none => exact h x hx ho1
      | some _ => simp at ho2
    have hw2 : w2.doc.html = .ok (shut f ⟨.root, none, [], []⟩).inner := by
      rw [← e3, Wiki.html, accept_plain ((side_leave e1).1.trans hs)]
      have hc : ∀ (d d' : Editor), d.nodes = d'.nodes → ∀ fuel i, d.accept fuel i = d'.accept fuel i := by
        intro d d' hd fuel
        induction fuel with
        | zero => intro i; rfl
        | succ fuel ih => intro i; unfold Editor.accept; rw [hd, funext ih]
      rw [Editor.html, hc _ _ hn.symm, hn]
    unfold tocHtml
    simp only [a1, bind, Except.bind, b1, hany]
    rw [if_neg (by simp), hw2]
    congr 1
    have h5 := sofar_shut f ⟨.root, none, [], []⟩ [] rfl
    rw [show sofar [f, ⟨.root, none, [], []⟩] = u ++ List.replicate n (.closing t!"ol") from d4, b3] at h5
    have h6 : sofar [shut f ⟨.root, none, [], []⟩] = (shut f ⟨.root, none, [], []⟩).inner := by
      simp [sofar, openToks, Node.opens, Klass.tag, shut]
    rw [← h6, h5, hf.1]
    simp [closeToks, Node.closes, Design.tag, element]

end Bglib.Doc
