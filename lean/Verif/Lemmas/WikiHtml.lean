import Verif.Lemmas.WikiParse
/-
The HTML of wiki text.
-/
namespace Bglib
open Spec Doc

variable {S T U : Prop}

/-- All text between the tags is safe. -/
def TextsSafe (b : List Tok) : Prop := ∀ t, Tok.text t ∈ b → SafeText t

theorem textsSafe_append {a b : List Tok} (ha : TextsSafe a) (hb : TextsSafe b) : TextsSafe (a ++ b) := by
  intro t ht
  rcases List.mem_append.1 ht with h | h
  · exact ha t h
  · exact hb t h

theorem node_texts (n : Node) (a c : List Tok) (ha : n.opens = .ok a) (hc : n.closes = .ok c) (hs : SafeText n.text) :
    TextsSafe a ∧ TextsSafe c := by
  have hnl : SafeText t!"\n" := safe_plainB _ (by decide)
  unfold Node.opens at ha
  unfold Node.closes at hc
  constructor
  · intro t ht
    split at ha
    · simp only [Except.ok.injEq] at ha; subst ha; simp only [List.mem_singleton, Tok.text.injEq] at ht; subst ht; exact hs
    all_goals first
      | cases ha; done
      | (simp only [Except.ok.injEq] at ha; subst ha; simp at ht; done)
      | (split at ha <;> (simp only [Except.ok.injEq] at ha; subst ha; simp at ht; done))
  · intro t ht
    split at hc
    · simp only [Except.ok.injEq] at hc; subst hc; simp only [List.mem_singleton, Tok.text.injEq] at ht; subst ht; exact hnl
    all_goals first
      | cases hc; done
      | (simp only [Except.ok.injEq] at hc; subst hc; simp at ht; done)
      | (split at hc <;> (simp only [Except.ok.injEq] at hc; subst hc; simp at ht; done))

theorem acceptAll_texts (f : Nat → Py (List Tok)) (is : List Nat) (h : ∀ i ∈ is, ∀ b, f i = .ok b → TextsSafe b)
    (b : List Tok) (hb : acceptAll f is = .ok b) : TextsSafe b := by
  induction is generalizing b with
  | nil => cases hb; intro t ht; simp at ht
  | cons i is ih =>
    unfold acceptAll at hb
    split at hb
    · cases hb
    · next a ha =>
      split at hb
      · cases hb
      · next c hc =>
        cases hb
        exact textsSafe_append (h i (by simp) a ha) (ih (fun j hj => h j (by simp [hj])) c hc)

theorem accept_texts (e : Editor) (hs : ∀ (i : Nat) (n : Node), e.nodes[i]? = some n → SafeText n.text) (fuel i : Nat)
    (b : List Tok) (h : e.accept fuel i = .ok b) : TextsSafe b := by
  induction fuel generalizing i b with
  | zero => simp [Editor.accept] at h
  | succ fuel ih =>
    unfold Editor.accept at h
    split at h
    · cases h
    · next n hn =>
      split at h
      · cases h
      · next a ha =>
        split at h
        · cases h
        · next b' hb =>
          split at h
          · cases h
          · next c hc =>
            cases h
            obtain ⟨h1, h2⟩ := node_texts n a c ha hc (hs i n hn)
            exact textsSafe_append (textsSafe_append h1 (acceptAll_texts _ _ (fun j _ b hb => ih j b hb) b' hb)) h2

/-! ### The table of contents -/

/-- Nodes stay, with their classes and parents. -/
def Stays (w w' : Wiki) : Prop :=
  ∀ (i : Nat) (n : Node), w.doc.nodes[i]? = some n → ∃ n', w'.doc.nodes[i]? = some n' ∧ n'.klass = n.klass ∧ n'.parent = n.parent

theorem stays_trans {a b c : Wiki} (h1 : Stays a b) (h2 : Stays b c) : Stays a c := by
  intro i n hn
  obtain ⟨n', k1, k2, k3⟩ := h1 i n hn
  obtain ⟨n'', k4, k5, k6⟩ := h2 i n' k1
  exact ⟨n'', k4, by rw [k5, k2], by rw [k6, k3]⟩

theorem stays_push (w : Wiki) (c : Nat) (k : Klass) (p : Option Nat) (t : Text) (cur : Option Nat) (s : List (Nat × Extra)) :
    Stays w ⟨⟨w.doc.nodes.modify c (fun n => { n with children := n.children ++ [w.doc.nodes.length] }) ++
      [⟨k, p, [], t⟩], cur⟩, s⟩ := by
  intro i n hn
  refine ⟨_, (modify_get _ _ _ _ _ _).2 (Or.inl ⟨n, hn, rfl⟩), ?_, ?_⟩ <;> split <;> rfl

/-- `k + 1` lists, each the parent of the one before, from `c` up. -/
def Chain (w : Wiki) : Nat → Nat → Prop
  | 0, c => ∃ n, w.doc.nodes[c]? = some n ∧ IsList n.klass
  | k + 1, c => ∃ n p, w.doc.nodes[c]? = some n ∧ IsList n.klass ∧ n.parent = some p ∧ Chain w k p

theorem chain_stays {w w' : Wiki} (h : Stays w w') (k c : Nat) (hc : Chain w k c) : Chain w' k c := by
  induction k generalizing c with
  | zero =>
    obtain ⟨n, h1, h2⟩ := hc
    obtain ⟨n', k1, k2, _⟩ := h c n h1
    exact ⟨n', k1, by rw [k2]; exact h2⟩
  | succ k ih =>
    obtain ⟨n, p, h1, h2, h3, h4⟩ := hc
    obtain ⟨n', k1, k2, k3⟩ := h c n h1
    exact ⟨n', p, k1, by rw [k2]; exact h2, by rw [k3]; exact h3, ih p h4⟩

theorem chain_nodes (w w' : Wiki) (h : w'.doc.nodes = w.doc.nodes) (k c : Nat) (hc : Chain w k c) : Chain w' k c :=
  chain_stays (fun i n hn => ⟨n, by rw [h]; exact hn, rfl, rfl⟩) k c hc

theorem chain_top {w : Wiki} {k c : Nat} (h : Chain w k c) : ∃ n, w.doc.nodes[c]? = some n ∧ IsList n.klass := by
  cases k with
  | zero => exact h
  | succ k => obtain ⟨n, _, h1, h2, _⟩ := h; exact ⟨n, h1, h2⟩

/-- Entering, with the new node. -/
theorem enter_node (w : Wiki) (hw : WikiInv S T U w) (k : Klass) (hk : k ≠ .root) (hkl : k ≠ .list none)
    (hks : k = .list (some .sign) → S) (hf : Free w ∨ k = .itemize ∨ IsList k)
    (hit : k = .itemize → ∃ d, w.doc.currentKlass = some (.list d)) (c : Nat) (hc : w.doc.current = some c) :
    ∃ w' j, w.enter k = .ok w' ∧ WikiInv S T U w' ∧ Stays w w' ∧ w'.doc.current = some j ∧
      w'.doc.nodes[j]? = some ⟨k, some c, [], []⟩ := by
  obtain ⟨w', h1, h2, h3⟩ := enter_ok w hw k none hk hkl hks hf hit (fun y hy => by cases hy)
  obtain ⟨d, n, _, _, _, h4⟩ := append_spec w.doc hw.doc k hk c hc
  have h1' := h1
  unfold Wiki.enter at h1'
  rw [h4] at h1'
  cases h1'
  exact ⟨_, _, h1, h2, hc ▸ stays_push w _ _ _ _ _ _, rfl, hc ▸ pushed_new⟩

theorem leave_current (w : Wiki) (hw : WikiInv S T U w) (ks : List Klass) (c p : Nat) (n : Node) (hc : w.doc.current = some c)
    (hn : w.doc.nodes[c]? = some n) (hk : (ks.any fun k => n.klass.isA k) = true) (hp : n.parent = some p) :
    w.leave ks = .ok { w with doc := { w.doc with current := some p } } ∧
      WikiInv S T U { w with doc := { w.doc with current := some p } } := by
  have hcl := (List.getElem?_eq_some_iff.1 hn).1
  have : w.doc.climb (fun n => ks.any fun k => n.klass.isA k) (w.doc.nodes.length + 1) w.doc.current =
      .ok (some c) := by
    rw [hc]
    unfold Editor.climb
    rw [hn]
    dsimp only
    rw [if_pos hk]
  unfold Wiki.leave
  rw [this]
  dsimp only
  rw [show w.doc.parentOf c = some p by simp [Editor.parentOf, hn, hp]]
  refine ⟨rfl, goto_winv w hw p ?_⟩
  by_cases h0 : c = 0
  · subst h0
    obtain ⟨r, hr, _, hrp⟩ := hw.doc.root
    rw [hn] at hr
    cases hr
    rw [hrp] at hp
    cases hp
  · obtain ⟨q, hq, hlt⟩ := hw.doc.parents c n hn h0
    rw [hp] at hq
    cases hq
    omega

/-- The state between the headings: at the innermost of `k + 1` lists. -/
def AtList (S T U : Prop) (k : Nat) (w : Wiki) : Prop := WikiInv S T U w ∧ ∃ c, w.doc.current = some c ∧ Chain w k c

theorem enterLevels (d k : Nat) (w : Wiki) (hw : AtList S T U k w) :
    ∃ w', times (fun w => w.enter (.list (some .numeric))) d w = .ok w' ∧ AtList S T U (k + d) w' := by
  induction d generalizing k w with
  | zero => exact ⟨w, rfl, hw⟩
  | succ d ih =>
    obtain ⟨h1, c, h2, h3⟩ := hw
    obtain ⟨w1, j, e1, e2, e3, e4, e5⟩ := enter_node w h1 (.list (some .numeric)) (by decide) (by decide)
      (fun h => by cases h) (Or.inr (Or.inr ⟨_, rfl⟩)) (fun h => by cases h) c h2
    obtain ⟨w2, k1, k2⟩ := ih (k + 1) w1 ⟨e2, j, e4, ⟨_, c, e5, ⟨_, rfl⟩, rfl, chain_stays e3 k c h3⟩⟩
    refine ⟨w2, ?_, by rwa [show k + (d + 1) = k + 1 + d by omega]⟩
    show (w.enter (.list (some .numeric)) >>= _) = _
    rw [e1]
    exact k1

theorem leaveLevels (d k : Nat) (w : Wiki) (hw : AtList S T U (k + d) w) :
    ∃ w', times (fun w => w.leave [.list none]) d w = .ok w' ∧ AtList S T U k w' := by
  induction d generalizing w with
  | zero => exact ⟨w, rfl, hw⟩
  | succ d ih =>
    obtain ⟨h1, c, h2, n, p, h3, h4, h5, h6⟩ := hw
    obtain ⟨e1, e2⟩ := leave_current w h1 [.list none] c p n h2 h3 (by simpa using (isA_isList n.klass).2 h4) h5
    obtain ⟨w2, k1, k2⟩ := ih _ ⟨e2, p, rfl, by apply chain_nodes w; rfl; exact h6⟩
    refine ⟨w2, ?_, k2⟩
    show (w.leave [.list none] >>= _) = _
    rw [e1]
    exact k1

theorem addTexts_ok (ts : List Text) (hts : ¬ U → ∀ t ∈ ts, SafeText t) (w : Wiki) (hw : WikiInv S T U w) (c : Nat)
    (hc : w.doc.current = some c) (hf : Free w) :
    ∃ w', w.addTexts ts = .ok w' ∧ WikiInv S T U w' ∧ Stays w w' ∧ w'.doc.current = some c := by
  induction ts generalizing w with
  | nil => exact ⟨w, rfl, hw, fun i n h => ⟨n, h, rfl, rfl⟩, hc⟩
  | cons t ts ih =>
    have hcl := hw.doc.current c hc
    have hpush := push_winv w hw c c .text t hcl hcl (by decide) (by decide) (fun h => by cases h) (fun h => absurd rfl h)
      (fun hU => hts hU t (by simp)) (Or.inl rfl) (fun m hm hl => absurd hl (hf c m hc hm)) (fun h => by cases h) c (by omega)
      w.side (fun i y h => Or.inr h)
    have hst := stays_push w c .text (some c) t (some c) w.side
    obtain ⟨w', h1, h2, h3, h4⟩ := ih (fun hU t ht => hts hU t (by simp [ht])) _ hpush rfl (by
      intro c' n hc' hn hl
      cases hc'
      rcases pushed_get hn with ⟨m, k1, k2, _⟩ | ⟨_, rfl⟩
      · rw [k2] at hl; exact hf c m hc k1 hl
      · obtain ⟨d, hd⟩ := hl; cases hd)
    refine ⟨w', ?_, h2, stays_trans hst h3, h4⟩
    unfold Wiki.addTexts
    rw [hc]
    exact h1

theorem tocItem_ok (l : List (Option Text)) (hl : ¬ U → ∀ t, some t ∈ l → SafeText t) (k : Nat) (w : Wiki)
    (hw : AtList S T U k w) : ∃ w', w.tocItem l = .ok w' ∧ AtList S T U k w' := by
  obtain ⟨h1, c, h2, h3⟩ := hw
  obtain ⟨n, hn, d, hd⟩ := chain_top h3
  obtain ⟨w1, j, a1, a2, a3, a4, a5⟩ := enter_node w h1 .itemize (by decide) (by decide) (fun h => by cases h)
    (Or.inr (Or.inl rfl)) (fun _ => ⟨d, by simp [Editor.currentKlass, h2, hn, hd]⟩) c h2
  have hf1 : Free w1 := free_klass w1 .itemize (by simp [Editor.currentKlass, a4, a5]) (not_list fun d h => by cases h)
  obtain ⟨w2, j2, b1, b2, b3, b4, b5⟩ := enter_node w1 a2 .anchor (by decide) (by decide) (fun h => by cases h)
    (Or.inl hf1) (fun h => by cases h) j a4
  have hf2 : Free w2 := free_klass w2 .anchor (by simp [Editor.currentKlass, b4, b5]) (not_list fun d h => by cases h)
  obtain ⟨w3, c1, c2, c3, c4⟩ := addTexts_ok (l.filterMap id) (fun hU t ht => hl hU t (by simpa using ht)) w2 b2 j2 b4 hf2
  obtain ⟨n3, d1, d2, d3⟩ := c3 j2 _ b5
  obtain ⟨e1, e2⟩ := leave_current w3 c2 [.anchor] j2 j n3 c4 d1 (by rw [d2]; rfl) d3
  obtain ⟨n4, f1, f2, f3⟩ := stays_trans b3 c3 j _ a5
  obtain ⟨g1, g2⟩ := leave_current _ e2 [.itemize] j c n4 rfl f1 (by rw [f2]; rfl) f3
  refine ⟨_, ?_, g2, c, rfl, ?_⟩
  · unfold Wiki.tocItem
    simp only [bind, Except.bind]
    rw [a1]
    dsimp only
    rw [b1]
    dsimp only
    rw [c1]
    dsimp only
    rw [e1]
    exact g1
  · apply chain_nodes w3
    · rfl
    · exact chain_stays (stays_trans (stays_trans a3 b3) c3) k c h3

theorem tocEntry_ok (k : Nat) (h : Nat × List (Option Text)) (hl : ¬ U → ∀ t, some t ∈ h.2 → SafeText t) (w : Wiki)
    (hw : AtList S T U k w) : ∃ w', w.tocEntry k h = .ok w' ∧ AtList S T U h.1 w' := by
  obtain ⟨w1, a1, a2⟩ := enterLevels (h.1 - k) k w hw
  obtain ⟨w2, b1, b2⟩ := leaveLevels (k - h.1) h.1 w1 (by rwa [show h.1 + (k - h.1) = k + (h.1 - k) by omega])
  obtain ⟨w3, c1, c2⟩ := tocItem_ok h.2 hl h.1 w2 b2
  refine ⟨w3, ?_, c2⟩
  unfold Wiki.tocEntry Wiki.matchNesting
  simp only [bind, Except.bind]
  rw [a1]
  dsimp only
  rw [b1]
  dsimp only
  obtain ⟨_, c, d1, d2⟩ := b2
  obtain ⟨n, hn, d, hd⟩ := chain_top d2
  rw [show w2.doc.currentKlass = some (.list d) by simp [Editor.currentKlass, d1, hn, hd]]
  exact c1

theorem tocEntries_ok (hs : List (Nat × List (Option Text))) (k : Nat)
    (hl : ¬ U → ∀ h ∈ hs, ∀ t, some t ∈ h.2 → SafeText t) (w : Wiki)
    (hw : AtList S T U k w) : ∃ w', w.tocEntries k hs = .ok w' ∧ WikiInv S T U w' := by
  induction hs generalizing k w with
  | nil => exact ⟨w, rfl, hw.1⟩
  | cons h hs ih =>
    obtain ⟨w1, a1, a2⟩ := tocEntry_ok k h (fun hU t ht => hl hU h (by simp) t ht) w hw
    obtain ⟨w2, b1, b2⟩ := ih h.1 (fun hU g hg => hl hU g (by simp [hg])) w1 a2
    refine ⟨w2, ?_, b2⟩
    unfold Wiki.tocEntries
    rw [a1]
    exact b1

theorem flat_safe (l : List Text) (h : ∀ t ∈ l, SafeText t) : SafeText l.flatten := by
  induction l with
  | nil => exact .nil
  | cons t l ih => exact safe_append (h t (by simp)) (ih fun t ht => h t (by simp [ht]))

theorem heading_safe (e : Editor) (hs : ∀ (i : Nat) (n : Node), e.nodes[i]? = some n → SafeText n.text)
    (h : Nat × List (Option Text)) (hh : h ∈ e.headings) (t : Text) (ht : some t ∈ h.2) : SafeText t := by
  unfold Editor.headings at hh
  obtain ⟨i, _, hi⟩ := List.mem_filterMap.1 hh
  obtain ⟨n, hn, hi⟩ := Option.bind_eq_some_iff.1 hi
  obtain ⟨l, _, hl⟩ := Option.map_eq_some_iff.1 hi
  subst hl
  obtain ⟨j, _, hj⟩ := List.mem_map.1 ht
  unfold Editor.deAnchor at hj
  split at hj
  · cases hj
  · next m hm =>
    split at hj
    · cases hj; exact hs j m hm
    · split at hj
      · cases hj
        refine flat_safe _ fun t ht => ?_
        obtain ⟨q, _, rfl⟩ := List.mem_map.1 ht
        split
        · next o ho =>
          split
          · exact hs q o ho
          · exact .nil
        · exact .nil
      · cases hj

theorem toc_ok (e : Editor) (hs : ¬ U → ∀ (i : Nat) (n : Node), e.nodes[i]? = some n → SafeText n.text) :
    ((∃ h ∈ e.headings, none ∈ h.2) ∧ tocHtml e = .error .attributeError) ∨
    ((∀ h ∈ e.headings, none ∉ h.2) ∧ ∃ b, tocHtml e = .ok b ∧ Balanced b ∧ (¬ U → TextsSafe b)) := by
  obtain ⟨w1, j, a1, a2, a3, a4, a5⟩ := enter_node (S := False) (T := False) (U := U) Wiki.start start_winv
    (.list (some .numeric)) (by decide) (by decide) (fun h => by cases h) (Or.inl start_free) (fun h => by cases h) 0 rfl
  obtain ⟨w2, b1, b2⟩ := tocEntries_ok e.headings 0
    (fun hU h hh t ht => heading_safe e (hs hU) h hh t ht) w1 ⟨a2, j, a4, _, a5, ⟨_, rfl⟩⟩
  have heq : tocHtml e = if e.headings.any (fun h => h.2.any Option.isNone) then .error .attributeError else w2.doc.html := by
    unfold tocHtml
    simp only [bind, Except.bind]
    rw [a1]
    dsimp only
    rw [b1]
  have hany : e.headings.any (fun h => h.2.any Option.isNone) = true ↔ ∃ h ∈ e.headings, none ∈ h.2 := by
    simp only [List.any_eq_true, Option.isNone_iff_eq_none, exists_eq_right]
  by_cases hn : ∃ h ∈ e.headings, none ∈ h.2
  · left
    exact ⟨hn, by rw [heq, if_pos (hany.2 hn)]⟩
  · right
    refine ⟨fun h hh hm => hn ⟨h, hh, hm⟩, ?_⟩
    rw [heq, if_neg (fun h => hn (hany.1 h))]
    obtain ⟨r, hr, _⟩ := b2.doc.root
    rcases accept_ok w2.doc b2.doc (w2.doc.nodes.length + 1) 0 (List.getElem?_eq_some_iff.1 hr).1 (by omega) with
      ⟨_, n, hm, hk⟩ | ⟨b, h1, h2, _⟩
    · obtain ⟨i, hi⟩ := List.mem_iff_getElem?.1 hm
      exact absurd hk (b2.lists i n hi)
    · exact ⟨b, h1, h2, fun hU => accept_texts _ (b2.safe hU) _ _ _ h1⟩

/-! ### Writing -/

/-- What writing gives. `B`: what docutils gives is balanced. -/
def HtmlOk (S T U B : Prop) (r : Py (List Tok)) : Prop :=
  (∃ b, r = .ok b ∧ (B → Balanced b) ∧ (¬ U → TextsSafe b)) ∨ (r = .error .keyError ∧ S) ∨ (r = .error .attributeError ∧ T)

theorem acceptAll_html {B : Prop} (f : Nat → Py (List Tok)) (is : List Nat) (h : ∀ i ∈ is, HtmlOk S T U B (f i)) :
    HtmlOk S T U B (acceptAll f is) := by
  induction is with
  | nil => exact Or.inl ⟨[], rfl, fun _ => .nil, fun _ t ht => by simp at ht⟩
  | cons i is ih =>
    unfold acceptAll
    rcases h i (by simp) with ⟨a, h1, h2, h3⟩ | ⟨h1, h2⟩ | ⟨h1, h2⟩
    · rw [h1]
      rcases ih (fun j hj => h j (by simp [hj])) with ⟨b, k1, k2, k3⟩ | ⟨k1, k2⟩ | ⟨k1, k2⟩
      · rw [k1]
        exact Or.inl ⟨a ++ b, rfl, fun hB => .append _ _ (h2 hB) (k2 hB), fun hU => textsSafe_append (h3 hU) (k3 hU)⟩
      · rw [k1]; exact Or.inr (Or.inl ⟨rfl, k2⟩)
      · rw [k1]; exact Or.inr (Or.inr ⟨rfl, k2⟩)
    · rw [h1]; exact Or.inr (Or.inl ⟨rfl, h2⟩)
    · rw [h1]; exact Or.inr (Or.inr ⟨rfl, h2⟩)

/-- What a node writes. -/
theorem node_html (env : Env) (w : Wiki) (hw : WikiInv S T U w) (i : Nat) (n : Node) (hn : w.doc.nodes[i]? = some n)
    (hU : ¬ U → EnvSafe env) :
    (∃ a c, w.opens i n = .ok a ∧ w.closes env i n = .ok c ∧
      ((∀ s, Balanced (env.rst s)) → ∀ b, Balanced b → Balanced (a ++ b ++ c)) ∧ (¬ U → TextsSafe a ∧ TextsSafe c)) ∨
    (w.opens i n = .error .keyError ∧ S) ∨ (w.opens i n = .error .attributeError ∧ T) := by
  have hplain : ∃ a c, n.opens = .ok a ∧ n.closes = .ok c ∧
      ((∀ s, Balanced (env.rst s)) → ∀ b, Balanced b → Balanced (a ++ b ++ c)) ∧ (¬ U → TextsSafe a ∧ TextsSafe c) := by
    rcases opens_closes n with ⟨_, h⟩ | ⟨a, c, h1, h2, h3, _⟩
    · exact absurd h (hw.lists i n hn)
    · exact ⟨a, c, h1, h2, fun _ => h3, fun hU => node_texts n a c h1 h2 (hw.safe hU i n hn)⟩
  have hside : ∀ x, w.extra i = some x → SideOk S T n.klass x := by
    intro x hx
    unfold Wiki.extra at hx
    obtain ⟨y, hy, hyx⟩ := Option.map_eq_some_iff.1 hx
    have hy1 := List.mem_of_find?_eq_some hy
    have hy2 := List.find?_some hy
    simp only [decide_eq_true_eq] at hy2
    obtain ⟨y1, y2⟩ := y
    dsimp only at hy2 hyx
    subst hy2 hyx
    obtain ⟨n', h1, h2⟩ := hw.side _ _ hy1
    rw [hn] at h1
    cases h1
    exact h2
  unfold Wiki.opens Wiki.closes
  cases hx : w.extra i with
  | none => exact Or.inl hplain
  | some x =>
    have hs := hside x hx
    cases x with
    | attrs l => exact Or.inl hplain
    | item ok =>
      cases ok with
      | true => exact Or.inl hplain
      | false => exact Or.inr (Or.inl ⟨rfl, hs.2 rfl⟩)
    | block buf rst =>
      left
      have ho : n.opens = .ok [] := by
        have hk : n.klass = .element := hs
        simp [Node.opens, hk, Klass.tag]
      dsimp only
      cases rst with
      | true =>
        refine ⟨[], env.rst buf, ho, by simp, fun hB b hb => .append _ _ hb (hB buf), fun h => ⟨fun t ht => by simp at ht, ?_⟩⟩
        exact (hU h).rst buf
      | false =>
        refine ⟨[], _, ho, rfl, fun _ b hb => ?_, fun _ => ⟨fun t ht => by simp at ht, fun t ht => ?_⟩⟩
        · exact .append _ _ hb (.wrap t!"pre" [.text (escape buf)] (.text _))
        · simp at ht
          rw [ht]
          exact safe_escape buf
    | toc =>
      dsimp only
      have hc : n.closes = .ok [] := by
        have hk : n.klass = .macro := hs.1
        simp [Node.closes, hk, Klass.tag]
      rcases toc_ok (U := U) w.doc hw.safe with ⟨_, h⟩ | ⟨_, b, h1, h2, h3⟩
      · exact Or.inr (Or.inr ⟨h, hs.2⟩)
      · refine Or.inl ⟨b, [], h1, hc, fun _ b' hb => ?_, fun h => ⟨h3 h, fun t ht => by simp at ht⟩⟩
        rw [List.append_nil]
        exact .append _ _ h2 hb

theorem accept_html (env : Env) (w : Wiki) (hw : WikiInv S T U w) (hU : ¬ U → EnvSafe env) (fuel i : Nat)
    (h1 : i < w.doc.nodes.length) (h2 : w.doc.nodes.length < fuel + i) :
    HtmlOk S T U (∀ s, Balanced (env.rst s)) (w.accept env fuel i) := by
  induction fuel generalizing i with
  | zero => omega
  | succ fuel ih =>
    unfold Wiki.accept
    have hg := List.getElem?_eq_getElem h1
    rw [hg]
    have hall := acceptAll_html (S := S) (T := T) (U := U) (B := ∀ s, Balanced (env.rst s)) (w.accept env fuel)
      w.doc.nodes[i].children (fun j hj => by
        have := hw.doc.children i _ hg j hj
        exact ih j this.2 (by omega))
    simp only [bind, Except.bind]
    rcases node_html env w hw i _ hg hU with ⟨a, c, ho, hc, hb, hs⟩ | ⟨ho, h⟩ | ⟨ho, h⟩
    · rw [ho]
      dsimp only
      rcases hall with ⟨b, k1, k2, k3⟩ | ⟨k1, k2⟩ | ⟨k1, k2⟩
      · rw [k1]
        dsimp only
        rw [hc]
        exact Or.inl ⟨a ++ b ++ c, rfl, fun hB => hb hB b (k2 hB),
          fun h => textsSafe_append (textsSafe_append (hs h).1 (k3 h)) (hs h).2⟩
      · rw [k1]; exact Or.inr (Or.inl ⟨rfl, k2⟩)
      · rw [k1]; exact Or.inr (Or.inr ⟨rfl, k2⟩)
    · rw [ho]; exact Or.inr (Or.inl ⟨rfl, h⟩)
    · rw [ho]; exact Or.inr (Or.inr ⟨rfl, h⟩)

/-- Formatting. -/
theorem format_ok (env : Env) (text : Text) :
    (∃ b, format env text = .ok b ∧ ((∀ s, Balanced (env.rst s)) → Balanced b) ∧ (¬ Unsafe env text → TextsSafe b)) ∨
    ∃ e, format env text = .error e ∧ MayFail env text e := by
  unfold format
  rcases parse_does env text with ⟨w, h1, h2, _⟩ | ⟨e, h1, h2⟩
  · rw [h1]
    obtain ⟨r, hr, _⟩ := h2.doc.root
    rcases accept_html env w h2 (fun hU => Classical.byContradiction fun h => hU (Or.inl h)) (w.doc.nodes.length + 1) 0
      (List.getElem?_eq_some_iff.1 hr).1 (by omega) with h | ⟨h, h'⟩ | ⟨h, h'⟩
    · exact Or.inl h
    · exact Or.inr ⟨_, h, h'⟩
    · exact Or.inr ⟨_, h, Or.inl h'⟩
  · rw [h1]
    exact Or.inr ⟨e, rfl, h2⟩

end Bglib
