import Verif.Lemmas.MixedPatterns
/-
Links are matched whole.
-/
namespace Bglib.Doc
open Spec Spec.Mixed

def linkPat : Link → Pat
  | .entry _ _ => .entryLink
  | .query _ _ => .queryLink
  | .game _ _ => .matchLink
  | .page _ => .schemeWikiname
  | .camel _ => .camelcase
  | .web _ _ => .autoAnchor
  | .named _ _ _ => .schemeUrl

def linkGroups : Link → List (Text × Text)
  | .web secure rest => [(t!"url_2", url secure rest)]
  | .named secure rest none => [(t!"url_1", url secure rest)]
  | .named secure rest (some d) => [(t!"disp", ' ' :: d), (t!"url_1", url secure rest)]
  | _ => []

theorem plus_none {cs : CharSet} {c : Char} (h : cs.mem c = false) (b : Bool) (t : Text) (g : List (Text × Text)) :
    (Re.plus (.set cs)).all ⟨b, c :: t, g⟩ = [] := by
  have e : (Re.set cs).all ⟨b, c :: t, g⟩ = [] := by simp [Re.all, h]
  show repAll (Re.set cs).all (t.length + 1) 1 ⟨b, c :: t, g⟩ = []
  simp [repAll, e]

theorem seq_none {a : Re} {p : Place} (c : Re) (h : a.all p = []) : (Re.seq a c).all p = [] := by rw [seq_all, h]; rfl

theorem ch_none {c d : Char} (h : d ≠ c) (b : Bool) (t : Text) (g : List (Text × Text)) : (Re.ch c).all ⟨b, d :: t, g⟩ = [] := by
  rw [ch_all, if_neg h]

theorem ch_one (c : Char) (b : Bool) (t : Text) (g : List (Text × Text)) : (Re.ch c).all ⟨b, c :: t, g⟩ = [⟨false, t, g⟩] := by
  rw [ch_all, if_pos rfl]

def entryR : Re := .seq (.alt (.ch '#') (.lit t!"entry:")) (.plus (.any digits))
def queryR : Re := .alt (.seq (.lit t!"query:") (.plus (.any digits))) (.all' [.ch '{', .plus (.any digits), .ch '}'])
def matchR : Re := .alts [.seq (.ch 'm') (.plus (.any digits)), .seq (.lit t!"match:") (.plus (.any digits)),
    .all' [.ch '[', .plus (.any digits), .ch ']']]
def schemeR : Re := .all' [.ch '[', urlRe t!"url_1", .opt (.group t!"disp" (.seq (.ch ' ') (.plus (.set ⟨true, [(']', ']')]⟩)))), .ch ']']
def pageR : Re := .all' [.lit t!"[wiki:", .plus (.any [('A', 'Z'), ('a', 'z')]), .ch ']']
def camelR : Re := .seq hump (.plus hump)

theorem bangs_hash : (bangs.filter fun x => x.2.starts '#') = [(.entryLink, entryR)] := by decide +kernel
theorem bangs_e : (bangs.filter fun x => x.2.starts 'e') = [(.entryLink, entryR)] := by decide +kernel
theorem bangs_q : (bangs.filter fun x => x.2.starts 'q') = [(.queryLink, queryR)] := by decide +kernel
theorem bangs_m : (bangs.filter fun x => x.2.starts 'm') = [(.matchLink, matchR)] := by decide +kernel
theorem bangs_h : (bangs.filter fun x => x.2.starts 'h') = [(.autoAnchor, urlRe t!"url_2")] := by decide +kernel
theorem bangs_brace : (bangs.filter fun x => x.2.starts '{') =
    [(.preformatStart, .all' [.bol, .lit t!"{{{", .eol]), (.monospaceStart, .lit t!"{{{"), (.queryLink, queryR)] := by decide +kernel
theorem bangs_bracket : (bangs.filter fun x => x.2.starts '[') =
    [(.matchLink, matchR), (.schemeUrl, schemeR), (.schemeWikiname, pageR)] := by decide +kernel
theorem bangs_camel : bangs = bangs.take 23 ++ [(.camelcase, camelR)] := by decide +kernel
theorem bangs_small : ((bangs.take 23).all fun x => !x.2.nul && x.2.within [('!', '@'), ('[', '~')]) = true := by decide +kernel

theorem filter_bangs (c : Char) (t : Text) (b : Bool) :
    firstPattern bangs ⟨b, c :: t, []⟩ = firstPattern (bangs.filter fun x => x.2.starts c) ⟨b, c :: t, []⟩ :=
  firstPattern_filter bangs c t _ rfl bangs_nul

theorem digit_ne {c d : Char} (h : digit c = true) (hd : digit d = false) : c ≠ d := by
  rintro rfl; rw [h] at hd; cases hd

theorem entry_first {b : Bool} {long : Bool} {n t : Text} (hn : Filled digit n) (ht : ∀ c, t.head? = some c → digit c = false) :
    firstPattern bangs ⟨b, (Link.entry long n).write ++ t, []⟩ =
      some (.entryLink, (Link.entry long n).write, [], ⟨false, t, []⟩) := by
  cases long with
  | false =>
    show firstPattern bangs ⟨b, '#' :: (n ++ t), []⟩ = _
    rw [filter_bangs, bangs_hash]
    exact front_first (s := '#' :: n) (by simp)
      (front_seq (s1 := ['#']) (front_left (front_ch '#' b _ _)) (front_plus _ n t _ _ hn.1 hn.2 ht))
  | true =>
    show firstPattern bangs ⟨b, 'e' :: (t!"ntry:" ++ (n ++ t)), []⟩ = _
    rw [filter_bangs, bangs_e]
    exact front_first (s := t!"entry:" ++ n) (by simp)
      (front_seq (s1 := t!"entry:") (front_right (front_lit _ _ b _) (ch_none (by decide) _ _ _)) (front_plus _ n t _ _ hn.1 hn.2 ht))

theorem query_first {b : Bool} {long : Bool} {n t : Text} (hn : Filled digit n) (ht : (Link.query long n).Stops t.head?) :
    firstPattern bangs ⟨b, (Link.query long n).write ++ t, []⟩ =
      some (.queryLink, (Link.query long n).write, [], ⟨false, t, []⟩) := by
  cases long with
  | true =>
    show firstPattern bangs ⟨b, 'q' :: (t!"uery:" ++ (n ++ t)), []⟩ = _
    rw [filter_bangs, bangs_q]
    exact front_first (s := t!"query:" ++ n) (by simp)
      (front_left (front_seq (s1 := t!"query:") (front_lit _ _ b _) (front_plus _ n t _ _ hn.1 hn.2 ht)))
  | false =>
    obtain ⟨hn0, hn1⟩ := hn
    cases n with
    | nil => exact absurd rfl hn0
    | cons d n =>
      have hd : digit d = true := by rw [List.all_cons, Bool.and_eq_true] at hn1; exact hn1.1
      show firstPattern bangs ⟨b, (Link.query false (d :: n)).write ++ t, []⟩ = _
      rw [show (Link.query false (d :: n)).write ++ t = '{' :: d :: (n ++ '}' :: t) by simp [Link.write]]
      have hl : ∀ b, (Re.lit t!"{{{").all ⟨b, '{' :: d :: (n ++ '}' :: t), []⟩ = [] := by
        intro b
        simp only [Re.lit, seq_all, ch_one, List.flatMap_cons, List.flatMap_nil, List.append_nil]
        rw [ch_none (digit_ne hd (by decide))]
        rfl
      rw [filter_bangs, bangs_brace, firstPattern_skip _ _ _ _ (by
        simp only [Re.all', seq_all, bol_all]
        cases b with
        | false => rfl
        | true =>
          simp only [if_true, List.flatMap_cons, List.flatMap_nil, List.append_nil, seq_all, hl]), firstPattern_skip _ _ _ _ (hl b)]
      have := front_first (n := Pat.queryLink) (rest := []) (s := '{' :: (d :: n ++ t!"}")) (t := t) (r := queryR) (b := b) (g := []) (by simp)
        (front_right (front_seq (s1 := ['{']) (front_ch '{' b _ _) (front_seq (front_plus ⟨false, digits⟩ (d :: n) (t!"}" ++ t) _ _ hn0 hn1 (by
          intro c hc; cases hc; decide)) (front_ch '}' _ _ _))) (seq_none _ (by
            simp only [Re.lit]
            exact seq_none _ (ch_none (by decide) _ _ _))))
      simpa [Link.write] using this

theorem match_none {c : Char} (hc : digit c = false) (b : Bool) (t : Text) : matchR.all ⟨b, '[' :: c :: t, []⟩ = [] := by
  simp only [matchR, Re.alts, alt_all, Re.all', Re.lit, seq_all, ch_one, ch_none (show '[' ≠ 'm' by decide), List.flatMap_cons,
    List.flatMap_nil, List.append_nil]
  rw [Re.any, plus_none (cs := ⟨false, digits⟩) hc]
  rfl

theorem game_first {b : Bool} {form : Fin 3} {n t : Text} (hn : Filled digit n) (ht : (Link.game form n).Stops t.head?) :
    firstPattern bangs ⟨b, (Link.game form n).write ++ t, []⟩ =
      some (.matchLink, (Link.game form n).write, [], ⟨false, t, []⟩) := by
  revert ht
  refine fin3 (P := fun form => (Link.game form n).Stops t.head? → firstPattern bangs ⟨b, (Link.game form n).write ++ t, []⟩ =
      some (.matchLink, (Link.game form n).write, [], ⟨false, t, []⟩)) ?_ ?_ ?_ form
  · intro ht
    show firstPattern bangs ⟨b, 'm' :: (n ++ t), []⟩ = _
    rw [filter_bangs, bangs_m]
    exact front_first (s := 'm' :: n) (by simp)
      (front_left (front_seq (s1 := ['m']) (front_ch 'm' b _ _) (front_plus _ n t _ _ hn.1 hn.2 ht)))
  · intro ht
    show firstPattern bangs ⟨b, 'm' :: (t!"atch:" ++ (n ++ t)), []⟩ = _
    rw [filter_bangs, bangs_m]
    refine front_first (s := t!"match:" ++ n) (by simp)
      (front_right (front_left (front_seq (s1 := t!"match:") (front_lit _ _ b _) (front_plus _ n t _ _ hn.1 hn.2 ht))) ?_)
    show (Re.seq (Re.ch 'm') (Re.plus (Re.any digits))).all ⟨b, 'm' :: 'a' :: (t!"tch:" ++ n ++ t), []⟩ = []
    rw [seq_all, ch_one, List.flatMap_cons, Re.any, plus_none (by decide)]
    rfl
  · intro _
    rw [show (Link.game 2 n).write ++ t = '[' :: (n ++ ']' :: t) by simp [Link.write]]
    rw [filter_bangs, bangs_bracket]
    have := front_first (n := Pat.matchLink) (rest := [(.schemeUrl, schemeR), (.schemeWikiname, pageR)]) (s := '[' :: (n ++ t!"]")) (t := t)
      (r := matchR) (b := b) (g := []) (by simp)
      (front_right (front_right (front_seq (s1 := ['[']) (front_ch '[' b _ _) (front_seq (front_plus ⟨false, digits⟩ n (t!"]" ++ t) _ _ hn.1 hn.2 (by
          intro c hc; cases hc; decide)) (front_ch ']' _ _ _))) (seq_none _ (by
            simp only [Re.lit]
            exact seq_none _ (ch_none (by decide) _ _ _)))) (seq_none _ (ch_none (by decide) _ _ _)))
    simpa [Link.write] using this

theorem front_url (name : Text) {b : Bool} {secure : Bool} {r t : Text} (hr : Filled urlChar r)
    (ht : ∀ c, t.head? = some c → urlChar c = false) : Front (urlRe name) b (url secure r) t [] [(name, url secure r)] := by
  refine front_group name ?_
  have hp := fun (b : Bool) => front_plus ⟨false, [('a', 'z'), ('A', 'Z'), ('0', '9'), ('_', '_'), ('~', '~'), ('#', '#'), ('=', '='), ('?', '?'),
      ('.', '.'), ('/', '/'), ('-', '-'), ('&', '&'), ('%', '%')]⟩ r t b [] hr.1 hr.2 ht
  have h1 := fun (b : Bool) => front_seq (s1 := t!"://") (front_lit t!"://" (r ++ t) b []) (hp _)
  cases secure with
  | true =>
    exact front_seq (s1 := t!"http") (front_lit _ _ b _) (front_seq (s1 := t!"s") (front_some (by simp) (front_ch 's' _ _ _)) (h1 _))
  | false =>
    exact front_seq (s1 := t!"http") (front_lit _ _ b _) (front_seq (s1 := []) (front_none (ch_none (by decide) _ _ _)) (h1 _))

theorem url_head (secure : Bool) (r : Text) : ∃ u, url secure r = 'h' :: u := ⟨_, rfl⟩

theorem web_first {b : Bool} {secure : Bool} {r t : Text} (hr : Filled urlChar r) (ht : ∀ c, t.head? = some c → urlChar c = false) :
    firstPattern bangs ⟨b, (Link.web secure r).write ++ t, []⟩ =
      some (.autoAnchor, (Link.web secure r).write, linkGroups (.web secure r), ⟨false, t, linkGroups (.web secure r)⟩) := by
  have hf := front_first (n := Pat.autoAnchor) (rest := []) (by simp [url]) (front_url t!"url_2" (b := b) (secure := secure) hr ht)
  obtain ⟨u, hu⟩ := url_head secure r
  simp only [Link.write, linkGroups]
  rw [hu] at hf ⊢
  rw [List.cons_append, filter_bangs, bangs_h]
  exact hf

theorem named_first {b : Bool} {secure : Bool} {r t : Text} {d : Option Text} (hf : (Link.named secure r d).Fit) :
    firstPattern bangs ⟨b, (Link.named secure r d).write ++ t, []⟩ =
      some (.schemeUrl, (Link.named secure r d).write, linkGroups (.named secure r d), ⟨false, t, linkGroups (.named secure r d)⟩) := by
  have hw : ∃ v, (Link.named secure r d).write ++ t = '[' :: 'h' :: v := by
    cases d <;> exact ⟨_, rfl⟩
  obtain ⟨v, hv⟩ := hw
  have hfront : Front schemeR b (Link.named secure r d).write t [] (linkGroups (.named secure r d)) := by
    cases d with
    | none =>
      have hu := fun b => front_url t!"url_1" (b := b) (secure := secure) (t := ([] ++ t!"]") ++ t) hf.1 (by intro c hc; cases hc; decide)
      exact front_seq (s1 := ['[']) (front_ch '[' b _ _) (front_seq (hu _) (front_seq (s1 := [])
        (front_none (by
          rw [group_all, seq_all, List.cons_append, ch_none (by decide)]; rfl)) (front_ch ']' _ _ _)))
    | some d =>
      obtain ⟨⟨hr, _⟩, h1, h2, h3, h4⟩ := hf
      have hd : d.all (CharSet.mem ⟨true, [(']', ']')]⟩) = true := by
        rw [List.all_eq_true]
        intro c hc
        cases hm : CharSet.mem ⟨true, [(']', ']')]⟩ c with
        | true => rfl
        | false =>
          exfalso
          have : c = ']' := by
            simp [CharSet.mem] at hm
            exact Char.le_antisymm hm.2 hm.1
          exact h2 (this ▸ hc)
      have hu := fun b => front_url t!"url_1" (b := b) (secure := secure) (t := ((' ' :: d) ++ t!"]") ++ t) hr (by intro c hc; cases hc; decide)
      have := front_seq (s1 := ['[']) (front_ch '[' b _ _) (front_seq (hu _) (front_seq (s1 := ' ' :: d)
        (front_some (by simp) (front_group t!"disp" (front_seq (s1 := [' ']) (front_ch ' ' _ _ _)
          (front_plus ⟨true, [(']', ']')]⟩ d (t!"]" ++ t) _ _ h1 hd (by intro c hc; cases hc; decide))))) (front_ch ']' _ _ _)))
      have e : (Link.named secure r (some d)).write = ['['] ++ (url secure r ++ ((' ' :: d) ++ t!"]")) := by simp [Link.write]
      rw [e]
      exact this
  have := front_first (n := Pat.schemeUrl) (rest := [(.schemeWikiname, pageR)]) (by cases d <;> simp [Link.write]) hfront
  rw [hv] at this ⊢
  rw [filter_bangs, bangs_bracket, firstPattern_skip _ _ _ _ (match_none (by decide) _ _)]
  exact this

theorem pageLink_first {b : Bool} {name t : Text} (hn : Filled letter name) :
    firstPattern bangs ⟨b, (Link.page name).write ++ t, []⟩ = some (.schemeWikiname, (Link.page name).write, [], ⟨false, t, []⟩) := by
  have hfront : Front pageR b (t!"[wiki:" ++ (name ++ t!"]")) t [] [] :=
    front_seq (s1 := t!"[wiki:") (front_lit _ _ b _) (front_seq (front_plus ⟨false, [('A', 'Z'), ('a', 'z')]⟩ name (t!"]" ++ t) _ _ hn.1 hn.2
      (by intro c hc; cases hc; decide)) (front_ch ']' _ _ _))
  have := front_first (n := Pat.schemeWikiname) (rest := []) (by simp) hfront
  rw [show (Link.page name).write = t!"[wiki:" ++ (name ++ t!"]") by simp [Link.write]]
  refine Eq.trans ?_ this
  show firstPattern bangs ⟨b, '[' :: 'w' :: (t!"iki:" ++ (name ++ t!"]") ++ t), []⟩ = _
  rw [filter_bangs, bangs_bracket, firstPattern_skip _ _ _ _ (match_none (by decide) _ _), firstPattern_skip _ _ _ _ (by
    simp only [schemeR, Re.all', seq_all, ch_one, List.flatMap_cons, List.flatMap_nil, List.append_nil, urlRe, group_all]
    simp only [Re.lit]
    rw [seq_none _ (ch_none (by decide) _ _ _)]
    rfl)]
  rfl

/-! ### Words with capitals -/

theorem front_hump {c : Char} {u t : Text} (hc : capital c = true) (hu : Filled small u) (ht : ∀ d, t.head? = some d → small d = false)
    (b : Bool) (g : List (Text × Text)) : Front hump b (c :: u) t g g :=
  front_seq (s1 := [c]) (front_set hc b _ g) (front_plus _ u t _ g hu.1 hu.2 ht)

theorem hump_none {t : Text} (ht : ∀ d, t.head? = some d → capital d = false) (b : Bool) (g : List (Text × Text)) :
    hump.all ⟨b, t, g⟩ = [] := by
  refine seq_none _ ?_
  cases t with
  | nil => rfl
  | cons d t =>
    have := ht d rfl
    simp only [Re.any, Re.all]
    rw [show CharSet.mem ⟨false, [('A', 'Z')]⟩ d = false from this]
    rfl

theorem capital_small {c : Char} (h : capital c = true) : small c = false := by
  cases hs : small c with
  | false => rfl
  | true =>
    exfalso
    obtain ⟨r, hr, h1, h2⟩ := mem_ranges (s := ⟨false, [('A', 'Z')]⟩) rfl h
    obtain ⟨r', hr', h3, h4⟩ := mem_ranges (s := ⟨false, [('a', 'z'), ('0', '9')]⟩) rfl hs
    simp only [List.mem_cons, List.not_mem_nil, or_false] at hr hr'
    subst hr
    rcases hr' with rfl | rfl
    · exact absurd (Char.le_trans h3 h2) (by decide)
    · exact absurd (Char.le_trans h1 h4) (by decide)

theorem joined_small (ps : List (Char × Text)) (t : Text) (hp : ∀ p ∈ ps, capital p.1 = true ∧ Filled small p.2)
    (ht : ∀ d, t.head? = some d → small d = false) : ∀ d, (joined ps ++ t).head? = some d → small d = false := by
  cases ps with
  | nil => exact ht
  | cons p ps =>
    intro d hd
    simp only [joined, List.flatMap_cons, List.cons_append, List.head?_cons, Option.some.injEq] at hd
    subst hd
    exact capital_small (hp p (List.mem_cons_self ..)).1

theorem humps_head (ps : List (Char × Text)) (t : Text) (hp : ∀ p ∈ ps, capital p.1 = true ∧ Filled small p.2)
    (ht : ∀ d, t.head? = some d → small d = false ∧ capital d = false) (g : List (Text × Text)) (k min : Nat) (hk : ps.length ≤ k)
    (hm : min ≤ ps.length) : ∃ l, repAll hump.all k min ⟨false, joined ps ++ t, g⟩ = ⟨false, t, g⟩ :: l := by
  induction ps generalizing k min with
  | nil =>
    have hm : min = 0 := by simpa using hm
    subst hm
    have e := hump_none (fun d hd => (ht d hd).2) false g
    refine ⟨[], ?_⟩
    show repAll hump.all k 0 ⟨false, t, g⟩ = _
    cases k with
    | zero => simp [repAll]
    | succ k => simp [repAll, e]
  | cons p ps ih =>
    cases k with
    | zero => simp at hk
    | succ k =>
      rw [List.length_cons] at hk hm
      obtain ⟨l, h1⟩ := ih (fun q hq => hp q (List.mem_cons_of_mem _ hq)) k (min - 1) (by omega) (by omega)
      obtain ⟨hc, hu⟩ := hp p (List.mem_cons_self ..)
      obtain ⟨l', h2⟩ := front_hump hc hu (joined_small ps t (fun q hq => hp q (List.mem_cons_of_mem _ hq)) fun d hd => (ht d hd).1) false g
      have e : joined (p :: ps) ++ t = p.1 :: p.2 ++ (joined ps ++ t) := by simp [joined]
      rw [e]
      simp only [repAll, h2]
      rw [List.filter_cons_of_pos (by simp; omega), List.flatMap_cons]
      simp only [Bool.false_and, h1]
      exact ⟨_, rfl⟩

theorem joined_length (ps : List (Char × Text)) : ps.length ≤ (joined ps).length := by
  induction ps with
  | nil => exact Nat.le_refl _
  | cons p ps ih => simp only [joined, List.flatMap_cons, List.length_append, List.length_cons] at ih ⊢; omega

theorem camel_first {b : Bool} {ps : List (Char × Text)} {t : Text} (hf : (Link.camel ps).Fit) (ht : (Link.camel ps).Stops t.head?) :
    firstPattern bangs ⟨b, (Link.camel ps).write ++ t, []⟩ = some (.camelcase, (Link.camel ps).write, [], ⟨false, t, []⟩) := by
  obtain ⟨h2, hp⟩ := hf
  match ps, h2, hp, ht with
  | p :: q :: ps, _, hp, ht =>
    have hp' : ∀ x ∈ q :: ps, capital x.1 = true ∧ Filled small x.2 := fun x hx => hp x (List.mem_cons_of_mem _ hx)
    obtain ⟨hc, hu⟩ := hp p (List.mem_cons_self ..)
    have hfront : Front camelR b (joined (p :: q :: ps)) t [] [] := by
      have e : joined (p :: q :: ps) = (p.1 :: p.2) ++ joined (q :: ps) := by simp [joined]
      rw [e]
      refine front_seq (front_hump hc hu (joined_small _ t hp' fun d hd => (ht d hd).1) b []) ?_
      obtain ⟨l, hl⟩ := humps_head (q :: ps) t hp' ht [] (joined (q :: ps) ++ t).length 1
        (by have := joined_length (q :: ps); rw [List.length_append]; omega) (by simp)
      refine ⟨l, ?_⟩
      show repAll hump.all (joined (q :: ps) ++ t).length 1 ⟨b && false, joined (q :: ps) ++ t, []⟩ = _
      rw [Bool.and_false, hl]
      simp
    have := front_first (n := Pat.camelcase) (rest := []) (by simp [joined]) hfront
    simp only [Link.write]
    rw [bangs_camel, firstPattern_skips _ _ _ ?_]
    · exact this
    · intro x hx
      have hk := List.all_eq_true.1 bangs_small x hx
      simp only [Bool.and_eq_true, Bool.not_eq_true'] at hk
      have e : joined (p :: q :: ps) ++ t = p.1 :: (p.2 ++ joined (q :: ps) ++ t) := by simp [joined]
      refine all_nil x.2 p.1 (p.2 ++ joined (q :: ps) ++ t) _ e hk.1 ?_
      cases hs : x.2.starts p.1 with
      | false => rfl
      | true =>
        exfalso
        obtain ⟨y, hy, h1, h2⟩ := starts_within _ _ _ hs hk.2
        obtain ⟨r, hr, h3, h4⟩ := mem_ranges (s := ⟨false, [('A', 'Z')]⟩) rfl hc
        simp only [List.mem_cons, List.not_mem_nil, or_false] at hr hy
        subst hr
        rcases hy with rfl | rfl
        · exact absurd (Char.le_trans h3 h2) (by decide)
        · exact absurd (Char.le_trans h1 h4) (by decide)

/-- Links are matched whole. -/
theorem link_first (l : Link) (b : Bool) (t : Text) (hf : l.Fit) (ht : l.Stops t.head?) :
    firstPattern bangs ⟨b, l.write ++ t, []⟩ = some (linkPat l, l.write, linkGroups l, ⟨false, t, linkGroups l⟩) := by
  cases l with
  | entry long n => exact entry_first hf ht
  | query long n => exact query_first hf ht
  | game form n => exact game_first hf ht
  | page name => exact pageLink_first hf
  | camel ps => exact camel_first hf ht
  | web secure r => exact web_first hf.1 ht
  | named secure r d => exact named_first hf

end Bglib.Doc
