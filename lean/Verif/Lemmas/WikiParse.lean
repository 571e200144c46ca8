import Verif.Lemmas.WikiText
/-
Parsing a whole text.
-/
namespace Bglib
open Spec Doc

/-- The line is a line of the text, as far as this matters. -/
def LineOf (text line : Text) : Prop :=
  ∃ a b, text = a ++ line ++ b ∧ (a = [] ∨ a.getLast? = some '\n' ∨ a.getLast? = some '\r')

/-- Unsafe text is possible. -/
def Unsafe (env : Env) (text : Text) : Prop := ¬ EnvSafe env ∨ ∃ u, Contains text u ∧ AmpUrl u

/-- A good state of formatting `text`. -/
abbrev GoodT (env : Env) (text : Text) (w : Wiki) : Prop :=
  Good (SignLine text) (Contains text t!"[[TableOfContent") (Unsafe env text) w

/-- Success with a good state, or an exception that may occur. -/
abbrev DoesT (env : Env) (text : Text) (r : Py Wiki) : Prop :=
  DoesOr (SignLine text) (Contains text t!"[[TableOfContent") (Unsafe env text) (MayFail env text) r

theorem contains_trans {a b c : Text} (h1 : Contains a b) (h2 : Contains b c) : Contains a c := by
  obtain ⟨x, y, rfl⟩ := h1
  obtain ⟨z, t, rfl⟩ := h2
  exact ⟨x ++ z, t ++ y, by simp⟩

theorem lineOf_contains {text line : Text} (h : LineOf text line) : Contains text line := by
  obtain ⟨a, b, h, _⟩ := h
  exact ⟨a, b, h⟩

theorem inner_mem (m : Text) (k : Nat) (c : Char) (h : c ∈ inner m k) : c ∈ m :=
  List.mem_of_mem_drop (List.dropLast_subset _ h)

theorem handle_does {env : Env} {text line : Text} (hl : LineOf text line) {w : Wiki} (hw : GoodT env text w)
    {x : Pat × Text × List (Text × Text)} (M : MatchAt linePatterns line x) (hb : x.2.1.head? ≠ some '!' ∨ x.1 = .rest) :
    DoesT env text (w.handle env x.1 x.2.1 x.2.2) := by
  have hcon : Contains text x.2.1 := contains_trans (lineOf_contains hl) (match_contains M)
  have hplain : isPlain x.1 = true → SafeText x.2.1 := fun h => safe_plain _ (plain_match M h)
  have hrest := fun h : x.1 = .rest => rest_match M h
  have hmacro := fun h : x.1 = .macro => macro_match M h
  have hitem := fun h : x.1 = .itemize => itemize_match M h
  have hanchor : x.1 = .autoAnchor → ¬ Unsafe env text → SafeText x.2.1 := fun h hU =>
    anchor_match M h (hb.resolve_right (by rw [h]; decide)) fun ⟨_, h2⟩ => hU (Or.inr ⟨_, hcon, h2⟩)
  have hinner : x.1 = .schemeWikiname → SafeText (inner x.2.1 6) := fun h =>
    safe_plain _ fun c hc => plain_match M (by rw [h]; decide) c (inner_mem _ _ _ hc)
  clear M
  obtain ⟨p, m, g⟩ := x
  dsimp only at *
  unfold Wiki.handle
  cases p <;> dsimp only
  case «macro» =>
    obtain ⟨name, h1, h2, h3⟩ := hmacro rfl
    rw [h1, Option.getD_some]
    have hpre : ∀ s : Text, name = s → Contains text (t!"[[" ++ s) := by
      rintro s rfl
      refine contains_trans hcon ?_
      rcases h3 with ⟨_, h⟩ | ⟨args, _, h⟩
      · exact ⟨[], t!"]]", by rw [h]; simp⟩
      · exact ⟨[], t!"(" ++ args ++ t!")]]", by rw [h]; simp⟩
    have hno : ∀ s : Text, name = s → groupOf g t!"macro_args" = none → Contains text (t!"[[" ++ s ++ t!"]]") := by
      rintro s rfl h
      rcases h3 with ⟨_, h'⟩ | ⟨args, h', _⟩
      · rw [← h']; exact hcon
      · rw [h] at h'; cases h'
    have hyes : ∀ s : Text, name = s → groupOf g t!"macro_args" ≠ none → Contains text (t!"[[" ++ s ++ t!"(") := by
      rintro s rfl h
      rcases h3 with ⟨h', _⟩ | ⟨args, _, h'⟩
      · exact absurd h' h
      · exact contains_trans hcon ⟨[], args ++ t!")]]", by rw [h']; simp⟩
    refine dispatch_does hw env name _ (fun h => hpre _ h) (fun h h' => Or.inl (hno _ h h')) (fun h h' => Or.inr (hno _ h h'))
      (fun h h' hd => Or.inr ⟨hyes _ h h', hd⟩) (fun h h' hd => ⟨hyes _ h h', hd⟩) (fun hU => ?_) h2
    exact Classical.byContradiction fun h => hU (Or.inl h)
  all_goals refine Or.inl ?_
  case itemize =>
    obtain ⟨h1, h2⟩ := hitem rfl
    refine itemize_does hw m g h1 fun hs => ?_
    obtain ⟨n, c, b, h3, h4⟩ := h2 hs
    obtain ⟨a, b', h5, h6⟩ := hl
    exact ⟨a, b ++ b', n, c, by rw [h5, h3]; simp, h6, h4⟩
  case rest => exact text_does hw m fun _ => hrest rfl
  case escapeHtml => exact text_does hw _ fun _ => safe_escape m
  case bolditalic => exact boldItalic_does hw
  case tableCell => exact tableCell_does hw
  case citation => exact cite_does hw m
  case quote => exact quote_does hw
  case preformatStart => exact enter_does hw .element _ rfl fun y hy => by cases hy; rfl
  case monospaceStart => exact enter_plain hw .monospace rfl
  case entryLink => exact link_does hw _ m fun _ => hplain rfl
  case queryLink => exact link_does hw _ m fun _ => hplain rfl
  case matchLink => exact link_does hw _ m fun _ => hplain rfl
  case camelcase => exact link_does hw _ m fun _ => hplain rfl
  case autoAnchor => exact extLink_does hw _ m fun hU => hanchor rfl hU
  case schemeWikiname => exact link_does hw _ _ fun _ => hinner rfl
  case schemeUrl =>
    unfold Wiki.schemeUrl
    refine extLink_does hw _ _ fun _ => ?_
    split <;> exact safe_escape _
  all_goals first
    | exact does_ok hw
    | exact startOrEnd_does hw _ rfl (by decide)
    | exact leave_does hw _ (by decide)

theorem item_does {env : Env} {text line : Text} (hl : LineOf text line) {w : Wiki} (hw : GoodT env text w)
    {x : Pat × Text × List (Text × Text)} (M : MatchAt linePatterns line x) : DoesT env text (w.item env x) := by
  unfold Wiki.item
  split
  · exact Or.inl (text_does hw _ fun _ => safe_escape _)
  · next h =>
    refine handle_does hl hw M ?_
    by_cases hr : x.1 = .rest
    · exact Or.inr hr
    · exact Or.inl fun hh => h ⟨hh, hr⟩

theorem items_does {env : Env} {text line : Text} (hl : LineOf text line) (xs : List (Pat × Text × List (Text × Text)))
    (hxs : ∀ x ∈ xs, Nonempty (MatchAt linePatterns line x)) {w : Wiki} (hw : GoodT env text w) :
    DoesT env text (w.items env xs) := by
  induction xs generalizing w with
  | nil => exact Or.inl (does_ok hw)
  | cons x xs ih =>
    obtain ⟨M⟩ := hxs x (by simp)
    exact doesOr_bind (item_does hl hw M) fun w' hw' => ih (fun y hy => hxs y (by simp [hy])) hw'

theorem onlyIf_does {S T U : Prop} {w : Wiki} (hw : Good S T U w) (b : Bool) (f : Wiki → Py Wiki)
    (hf : ∀ w, Good S T U w → Does S T U (f w)) : Does S T U (w.onlyIf b f) := by
  unfold Wiki.onlyIf
  split
  · exact hf w hw
  · exact does_ok hw

theorem done_good {S T U : Prop} {w : Wiki} (hw : Good S T U w) : Good S T U { w with doc := w.doc.done } := by
  obtain ⟨r, hr, hrk, _⟩ := hw.1.doc.root
  refine ⟨goto_winv w hw.1 0 (List.getElem?_eq_some_iff.1 hr).1, ?_⟩
  intro c n hc hn
  cases hc
  have hn' : w.doc.nodes[0]? = some n := hn
  rw [hr] at hn'
  cases hn'
  rw [hrk]
  exact not_list fun d h => by cases h

theorem parseLine_does {env : Env} {text line : Text} (hl : LineOf text line) {w : Wiki} (hw : GoodT env text w) :
    DoesT env text (w.parseLine env line) := by
  cases line with
  | nil =>
    unfold Wiki.parseLine
    exact doesOr_bind (Or.inl (leave_does hw [.div] (by decide))) fun _ h => Or.inl (does_ok (done_good h))
  | cons c line =>
    unfold Wiki.parseLine
    refine doesOr_bind (Or.inl (startIfNone_does hw .div rfl)) fun _ h1 => ?_
    refine doesOr_bind (Or.inl (onlyIf_does h1 _ _ fun _ h => leave_does h _ (by decide))) fun _ h2 => ?_
    refine doesOr_bind (Or.inl (onlyIf_does h2 _ _ fun _ h => leave_does h _ (by decide))) fun _ h3 => ?_
    refine doesOr_bind (Or.inl (onlyIf_does h3 _ _ fun _ h => ?_)) fun _ h4 => ?_
    · exact does_bind (startIfNone_does h .definitionList rfl) fun _ h => enter_plain h .definitionHeader rfl
    refine doesOr_bind (items_does hl _ (fun x hx => finditer_mem _ _ _ hx) h4) fun _ h5 => ?_
    refine Or.inl (onlyIf_does h5 _ _ fun _ h => ?_)
    exact does_bind (leave_does h [.definitionHeader] (by decide)) fun _ h => enter_plain h .definitionBody rfl

theorem block_klass {S T U : Prop} {w : Wiki} (hw : WikiInv S T U w) {c : Nat} {buf : Text} {rst : Bool}
    (h : w.block = some (c, buf, rst)) :
    w.doc.current = some c ∧ ∃ n, w.doc.nodes[c]? = some n ∧ n.klass = .element := by
  unfold Wiki.block at h
  split at h
  · cases h
  · next c' hc =>
    split at h
    · next b r hx =>
      cases h
      refine ⟨hc, ?_⟩
      unfold Wiki.extra at hx
      obtain ⟨y, hy, hyx⟩ := Option.map_eq_some_iff.1 hx
      have hy1 := List.mem_of_find?_eq_some hy
      have hy2 := List.find?_some hy
      simp only [decide_eq_true_eq] at hy2
      obtain ⟨y1, y2⟩ := y
      dsimp only at hy2 hyx
      subst hy2 hyx
      obtain ⟨n, h1, h2⟩ := hw.side _ _ hy1
      exact ⟨n, h1, h2⟩
    · cases h

theorem leaveBlock_does {S T U : Prop} {w : Wiki} (hw : Good S T U w) {c : Nat} {n : Node} (hc : w.doc.current = some c)
    (hn : w.doc.nodes[c]? = some n) (hk : n.klass = .element) : Does S T U (w.leave [.element]) := by
  have h0 : c ≠ 0 := by
    rintro rfl
    obtain ⟨r, hr, hrk, _⟩ := hw.1.doc.root
    rw [hn] at hr
    cases hr
    rw [hk] at hrk
    cases hrk
  obtain ⟨p, hp, hlt⟩ := hw.1.doc.parents c n hn h0
  have hcl := (List.getElem?_eq_some_iff.1 hn).1
  unfold Wiki.leave
  have : w.doc.climb (fun n => [Klass.element].any fun k => n.klass.isA k) (w.doc.nodes.length + 1) w.doc.current =
      .ok (some c) := by
    rw [hc]
    unfold Editor.climb
    rw [hn]
    dsimp only
    rw [if_pos (by rw [hk]; decide)]
  rw [this]
  dsimp only
  rw [show w.doc.parentOf c = some p by simp [Editor.parentOf, hn, hp]]
  refine does_ok ⟨goto_winv w hw.1 p (by omega), ?_⟩
  intro c' m hc' hm hl
  cases hc'
  rcases hw.1.below c p n m hn hp hm hl with h | ⟨d, h⟩
  · rw [hk] at h; cases h
  · rw [hk] at h; cases h

theorem line_does {env : Env} {text line : Text} (hl : LineOf text line) {w : Wiki} (hw : GoodT env text w) :
    DoesT env text (w.line env line) := by
  unfold Wiki.line
  split
  · next c buf rst hb =>
    obtain ⟨hc, n, hn, hk⟩ := block_klass hw.1 hb
    refine Or.inl ?_
    unfold Wiki.parseBlock
    split
    · exact leaveBlock_does hw hc hn hk
    · split <;> exact does_ok ⟨side_winv w hw.1 c _ ⟨n, hn, hk⟩, hw.2⟩
  · exact parseLine_does hl hw

theorem lines_does {env : Env} {text : Text} (ls : List Text) (hls : ∀ l ∈ ls, LineOf text l) {w : Wiki}
    (hw : GoodT env text w) : DoesT env text (w.lines env ls) := by
  induction ls generalizing w with
  | nil => exact Or.inl (does_ok hw)
  | cons l ls ih =>
    exact doesOr_bind (line_does (hls l (by simp)) hw) fun w' hw' => ih (fun y hy => hls y (by simp [hy])) hw'

theorem split_lines (acc t : Text) : ∀ l ∈ splitLines acc t, ∃ a b, acc.reverse ++ t = a ++ l ++ b ∧
    (a = [] ∨ a.getLast? = some '\n' ∨ a.getLast? = some '\r') := by
  have step : ∀ (s r : Text) (z : Char), (z = '\n' ∨ z = '\r') → (∀ l ∈ splitLines [] r, ∃ a b, ([] : Text).reverse ++ r = a ++ l ++ b ∧
      (a = [] ∨ a.getLast? = some '\n' ∨ a.getLast? = some '\r')) → s.getLast? = some z →
      ∀ l ∈ splitLines [] r, ∃ a b, s ++ r = a ++ l ++ b ∧ (a = [] ∨ a.getLast? = some '\n' ∨ a.getLast? = some '\r') := by
    intro s r z hz ih hs l hl
    obtain ⟨a, b, h1, h2⟩ := ih l hl
    refine ⟨s ++ a, b, by rw [List.append_assoc, List.append_assoc, ← List.append_assoc a, ← h1]; simp, Or.inr ?_⟩
    rcases h2 with rfl | h2
    · rw [List.append_nil, hs]
      rcases hz with rfl | rfl
      · exact Or.inl rfl
      · exact Or.inr rfl
    · rw [List.getLast?_append]
      rcases h2 with h2 | h2 <;> rw [h2] <;> simp
  fun_induction splitLines acc t with
  | case1 => simp
  | case2 acc h =>
    intro l hl
    cases List.mem_singleton.1 hl
    exact ⟨[], [], by simp, Or.inl rfl⟩
  | case3 acc r ih =>
    intro l hl
    rcases List.mem_cons.1 hl with rfl | hl
    · exact ⟨[], '\r' :: '\n' :: r, by simp, Or.inl rfl⟩
    · have := step (acc.reverse ++ ['\r', '\n']) r '\n' (Or.inl rfl) ih (by simp) l hl
      simpa using this
  | case4 acc r ih =>
    intro l hl
    rcases List.mem_cons.1 hl with rfl | hl
    · exact ⟨[], '\n' :: r, by simp, Or.inl rfl⟩
    · have := step (acc.reverse ++ ['\n']) r '\n' (Or.inl rfl) ih (by simp) l hl
      simpa using this
  | case5 acc r hne ih =>
    intro l hl
    rcases List.mem_cons.1 hl with rfl | hl
    · exact ⟨[], '\r' :: r, by simp, Or.inl rfl⟩
    · have := step (acc.reverse ++ ['\r']) r '\r' (Or.inr rfl) ih (by simp) l hl
      simpa using this
  | case6 acc c r h1 h2 h3 ih =>
    intro l hl
    have := ih l hl
    simpa using this

theorem parse_does (env : Env) (text : Text) : DoesT env text (Wiki.start.parse env text) :=
  lines_does _ (fun l hl => by
    obtain ⟨a, b, h1, h2⟩ := split_lines [] text l hl
    exact ⟨a, b, h1, h2⟩) ⟨start_winv, start_free⟩

end Bglib
