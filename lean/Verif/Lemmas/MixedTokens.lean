import Verif.Lemmas.MixedLinks
/-
How lines with links, macros and special characters are taken apart.
-/
namespace Bglib.Doc
open Spec Spec.Mixed
open Spec.Document (Style)

/-! ### Plain text before anything -/

/-- Begins with a link that has no mark in front. -/
def LinkStart (t : Text) : Prop :=
  (∃ v ∈ [t!"entry", t!"query", t!"match", t!"http", t!"https"], ∃ r, t = v ++ ':' :: r) ∨ ∃ d r, digit d = true ∧ t = 'm' :: d :: r

/-- The patterns of such links. -/
def isLong (p : Pat) : Bool := p ∈ [.entryLink, .queryLink, .matchLink, .autoAnchor]

theorem specials_long : (specials.all fun x => !x.2.nul && (isLong x.1 || x.2.within ((' ', ' ') :: marks))) = true := by
  decide +kernel

theorem long_patterns : (specials.all fun x => !isLong x.1 || x.2 = .seq bang entryR || x.2 = .seq bang queryR || x.2 = .seq bang matchR ||
    x.2 = .seq bang (urlRe t!"url_2")) = true := by decide +kernel

theorem plus_digit {p q : Place} (h : q ∈ (Re.plus (.any digits)).all p) : ∃ d r, digit d = true ∧ p.rest = d :: r := by
  obtain ⟨s, h1, h2, _, h3⟩ := mem_plus_set h
  cases s with
  | nil => exact absurd rfl h1
  | cons d s => exact ⟨d, s ++ q.rest, h3 d (List.mem_cons_self ..), h2⟩

theorem long_none {r : Re} (hr : r = entryR ∨ r = queryR ∨ r = matchR ∨ r = urlRe t!"url_2") (b : Bool) (c : Char) (t : Text)
    (hc : Document.plain c = true) (hl : ¬ LinkStart (c :: t)) : r.all ⟨b, c :: t, []⟩ = [] := by
  apply List.eq_nil_iff_forall_not_mem.2
  intro q hq
  have hno : ∀ d, Document.plain d = false → c ≠ d := by rintro d hd rfl; rw [hc] at hd; cases hd
  rcases hr with rfl | rfl | rfl | rfl
  · obtain ⟨x, h1, _⟩ := mem_seq hq
    rcases mem_alt h1 with h1 | h1
    · exact hno '#' (by decide) (List.cons.inj (mem_ch h1).1).1
    · exact hl (Or.inl ⟨t!"entry", by simp, x.rest, (mem_lit h1).1⟩)
  · rcases mem_alt hq with h1 | h1
    · obtain ⟨x, h1, _⟩ := mem_seq h1
      exact hl (Or.inl ⟨t!"query", by simp, x.rest, (mem_lit h1).1⟩)
    · obtain ⟨x, h1, _⟩ := mem_seq h1
      exact hno '{' (by decide) (List.cons.inj (mem_ch h1).1).1
  · rcases mem_alt hq with h1 | h1
    · obtain ⟨x, h1, h2⟩ := mem_seq h1
      obtain ⟨d, r, hd, e⟩ := plus_digit h2
      exact hl (Or.inr ⟨d, r, hd, (mem_ch h1).1.trans (by rw [e])⟩)
    · rcases mem_alt h1 with h1 | h1
      · obtain ⟨x, h1, _⟩ := mem_seq h1
        exact hl (Or.inl ⟨t!"match", by simp, x.rest, (mem_lit h1).1⟩)
      · obtain ⟨x, h1, _⟩ := mem_seq h1
        exact hno '[' (by decide) (List.cons.inj (mem_ch h1).1).1
  · obtain ⟨y, _, h1, _⟩ := mem_group hq
    obtain ⟨x, h2, h3⟩ := mem_seq h1
    obtain ⟨x1, h4, h5⟩ := mem_seq h3
    obtain ⟨x2, h6, _⟩ := mem_seq h5
    have e := (mem_lit h2).1
    have e2 := (mem_lit h6).1
    rcases mem_opt h4 with rfl | h4
    · exact hl (Or.inl ⟨t!"http", by simp, _, e.trans (by rw [e2]; rfl)⟩)
    · exact hl (Or.inl ⟨t!"https", by simp, _, e.trans (by rw [(mem_ch h4).1, e2]; rfl)⟩)

theorem plain_first' (start : Bool) (c : Char) (t : Text) (hc : Document.plain c = true) (hs : start = true → c ≠ ' ')
    (hl : ¬ LinkStart (c :: t)) :
    firstPattern linePatterns ⟨start, c :: t, []⟩ = some (.rest, [c], [], ⟨false, t, []⟩) := by
  by_cases hsp : c = ' '
  · subst hsp
    have hs : start = false := by cases start with
      | true => exact absurd rfl (hs rfl)
      | false => rfl
    subst hs
    rw [firstPattern_filter linePatterns ' ' t _ rfl nul_check, filter_blank]
    rw [firstPattern_skip _ _ _ _ (by rfl), firstPattern_skip _ _ _ _ (by rfl)]
    exact front_first (s := [' ']) (by simp) (front_set (by decide) _ _ _)
  · rw [linePatterns_split, firstPattern_skips]
    · refine front_first (s := [c]) (by simp) (front_set ?_ _ _ _)
      cases hm : CharSet.mem ⟨true, [('\n', '\n')]⟩ c with
      | true => rfl
      | false =>
        exfalso
        refine plain_not hc ⟨('\n', '\n'), by simp [marks], ?_⟩
        simpa [CharSet.mem] using hm
    · intro x hx
      have hk := List.all_eq_true.1 specials_long x hx
      have hp := List.all_eq_true.1 long_patterns x hx
      simp only [Bool.and_eq_true, Bool.not_eq_true', Bool.or_eq_true, decide_eq_true_eq] at hk hp
      rcases hk.2 with h | h
      · have hb : ∃ r, x.2 = .seq bang r ∧ (r = entryR ∨ r = queryR ∨ r = matchR ∨ r = urlRe t!"url_2") := by
          rcases hp with (((h' | h') | h') | h') | h'
          · rw [h] at h'; cases h'
          · exact ⟨_, h', by simp⟩
          · exact ⟨_, h', by simp⟩
          · exact ⟨_, h', by simp⟩
          · exact ⟨_, h', by simp⟩
        obtain ⟨r, e, hr⟩ := hb
        have : c ≠ '!' := by rintro rfl; exact absurd hc (by decide)
        rw [e, seq_all, bang_all _ _ _ _ this, List.flatMap_cons, long_none hr start c t hc hl]
        rfl
      · refine all_nil _ c t _ rfl hk.1 ?_
        cases hs' : x.2.starts c with
        | false => rfl
        | true =>
          exfalso
          obtain ⟨y, hy, h1, h2⟩ := starts_within _ _ _ hs' h
          rcases List.mem_cons.1 hy with e | hy
          · subst e; exact hsp (Char.le_antisymm h2 h1)
          · exact plain_not hc ⟨y, hy, h1, h2⟩

/-- No link begins in plain text before `t`. -/
def NoStart (t : Text) : Prop := ∀ u, u ≠ [] → u.all Document.plain = true → ¬ LinkStart (u ++ t)

theorem toks_plain' {start : Bool} {u t : Text} {xs : List LineToken} (hu : u.all Document.plain = true)
    (hs : start = true → (u ++ t).head? ≠ some ' ') (hn : NoStart t) (ht : Toks (start && u.isEmpty) t xs) :
    Toks start (u ++ t) (plainToks u ++ xs) := by
  induction u generalizing start with
  | nil => simpa [plainToks] using ht
  | cons c u ih =>
    have hu' := hu
    rw [List.all_cons, Bool.and_eq_true] at hu
    refine toks_cons (m := [c]) (by simp) (plain_first' start c (u ++ t) hu.1 ?_ (hn (c :: u) (by simp) hu')) rfl
      (ih hu.2 (by simp) (by simpa using ht))
    intro h e
    exact hs h (by simp [e])

/-- The plain text in front, and the character behind it. -/
def plainRun (t : Text) : Text × Option Char := (t.takeWhile Document.plain, (t.dropWhile Document.plain).head?)

theorem plainRun_append {u : Text} (t : Text) (h : u.all Document.plain = true) : plainRun (u ++ t) = (u ++ (plainRun t).1, (plainRun t).2) := by
  induction u with
  | nil => rfl
  | cons c u ih =>
    rw [List.all_cons, Bool.and_eq_true] at h
    have := ih h.2
    simp only [plainRun, List.cons_append, List.takeWhile_cons, List.dropWhile_cons, h.1, if_true] at this ⊢
    rw [(Prod.mk.inj this).1, (Prod.mk.inj this).2]

theorem digit_unplain {d : Char} (h : digit d = true) : Document.plain d = false := by
  cases hp : Document.plain d with
  | false => rfl
  | true =>
    exfalso
    obtain ⟨r, hr, h1, h2⟩ := mem_ranges (s := ⟨false, [('0', '9')]⟩) rfl h
    simp only [List.mem_cons, List.not_mem_nil, or_false] at hr
    subst hr
    exact plain_not hp ⟨('/', ':'), by simp [marks], Char.le_trans (by decide) h1, Char.le_trans h2 (by decide)⟩

theorem plainRun_nonplain {c : Char} {t : Text} (h : Document.plain c = false) : plainRun (c :: t) = ([], some c) := by
  simp [plainRun, h]

theorem start_run {t : Text} (h : LinkStart t) :
    ((plainRun t).1 ∈ [t!"entry", t!"query", t!"match", t!"http", t!"https"] ∧ (plainRun t).2 = some ':') ∨
      ((plainRun t).1 = t!"m" ∧ ∃ d, digit d = true ∧ (plainRun t).2 = some d) := by
  rcases h with ⟨v, hv, r, rfl⟩ | ⟨d, r, hd, rfl⟩
  · have hp : v.all Document.plain = true := by
      simp only [List.mem_cons, List.not_mem_nil, or_false] at hv
      rcases hv with rfl | rfl | rfl | rfl | rfl <;> decide
    rw [plainRun_append _ hp, plainRun_nonplain (by decide)]
    exact Or.inl ⟨by simpa using hv, rfl⟩
  · have := plainRun_append (u := ['m']) (d :: r) (by decide)
    rw [plainRun_nonplain (digit_unplain hd)] at this
    rw [show 'm' :: d :: r = ['m'] ++ d :: r from rfl, this]
    exact Or.inr ⟨rfl, d, hd, rfl⟩

theorem noStart_nil : NoStart [] := by
  intro u h0 hu h
  have := start_run h
  rw [plainRun_append _ hu] at this
  rcases this with ⟨_, h⟩ | ⟨_, d, _, h⟩ <;> cases h

theorem noStart_mark {c : Char} {t : Text} (hc : Document.plain c = false) (h1 : c ≠ ':') (h2 : digit c = false) : NoStart (c :: t) := by
  intro u h0 hu h
  have := start_run h
  rw [plainRun_append _ hu, plainRun_nonplain hc] at this
  rcases this with ⟨_, h⟩ | ⟨_, d, hd, h⟩
  · cases h; exact h1 rfl
  · cases h; rw [hd] at h2; cases h2

theorem noStart_word {v : Text} {t : Text} (hv : v ∈ [t!"entry", t!"query", t!"match", t!"http", t!"https"]) : NoStart (v ++ ':' :: t) := by
  intro u h0 hu h
  have := start_run h
  have hp : v.all Document.plain = true := by
    simp only [List.mem_cons, List.not_mem_nil, or_false] at hv
    rcases hv with rfl | rfl | rfl | rfl | rfl <;> decide
  rw [plainRun_append _ hu, plainRun_append _ hp, plainRun_nonplain (by decide)] at this
  rcases this with ⟨h, _⟩ | ⟨_, d, hd, h⟩
  · simp only [List.append_nil] at h
    cases u with
    | nil => exact h0 rfl
    | cons a u =>
      simp only [List.mem_cons, List.not_mem_nil, or_false] at hv h
      rcases hv with rfl | rfl | rfl | rfl | rfl <;> rcases h with h | h | h | h | h <;>
        first
          | (have := congrArg List.length h; simp at this; done)
          | (cases u with
            | nil => simp at h
            | cons b u => have := congrArg List.length h; simp at this)
  · cases h; exact absurd hd (by decide)

theorem noStart_m {d : Char} {t : Text} (hd : digit d = true) : NoStart ('m' :: d :: t) := by
  intro u h0 hu h
  have := start_run h
  have e := plainRun_append (u := ['m']) (d :: t) (by decide)
  rw [plainRun_nonplain (digit_unplain hd)] at e
  rw [plainRun_append _ hu, show 'm' :: d :: t = ['m'] ++ d :: t from rfl, e] at this
  rcases this with ⟨_, h⟩ | ⟨h, _⟩
  · cases h; exact absurd hd (by decide)
  · cases u with
    | nil => exact h0 rfl
    | cons a u => have := congrArg List.length h; simp at this

/-! ### Macros, special characters and escaped marks -/

def macroGroups (name : Text) : Option Text → List (Text × Text)
  | none => [(t!"macro_name", name)]
  | some a => [(t!"macro_args", a), (t!"macro_name", name)]

theorem macro_none {b : Bool} {c d : Char} {t : Text} (h : c ≠ '[' ∨ d ≠ '[') : macroRe.all ⟨b, c :: d :: t, []⟩ = [] := by
  simp only [macroRe, Re.all', Re.lit]
  by_cases hc : c = '['
  · subst hc
    refine seq_none _ ?_
    rw [seq_all, ch_one, List.flatMap_cons, ch_none (by rcases h with h | h <;> simp_all)]
    rfl
  · exact seq_none _ (seq_none _ (ch_none hc _ _ _))

theorem macro_first {b : Bool} {name t : Text} {args : Option Text} (hn : Filled wordly name) (ha : ∀ a, args = some a → Filled argument a) :
    firstPattern linePatterns ⟨b, macroWrite name args ++ t, []⟩ =
      some (.macro, macroWrite name args, macroGroups name args, ⟨false, t, macroGroups name args⟩) := by
  have hfront : Front macroRe b (macroWrite name args) t [] (macroGroups name args) := by
    cases args with
    | none =>
      have e : macroWrite name none = t!"[[" ++ (name ++ ([] ++ t!"]]")) := by simp [macroWrite]
      rw [e]
      exact front_seq (front_lit _ _ b _) (front_seq (front_group _ (front_plus ⟨false, wordChars⟩ name _ _ _ hn.1 hn.2
        (by intro c hc; cases hc; decide))) (front_seq (s1 := []) (front_none (seq_none _ (ch_none (by decide) _ _ _))) (front_lit _ _ _ _)))
    | some a =>
      have h := ha a rfl
      have e : macroWrite name (some a) = t!"[[" ++ (name ++ ((t!"(" ++ (a ++ t!")")) ++ t!"]]")) := by simp [macroWrite]
      rw [e]
      refine front_seq (front_lit _ _ b _) (front_seq (front_group _ (front_plus ⟨false, wordChars⟩ name _ _ _ hn.1 hn.2
        (by intro c hc; cases hc; decide))) (front_seq (front_some (by simp) (front_seq (front_ch '(' _ _ _)
          (front_seq (front_group t!"macro_args" (front_plus _ a _ _ _ h.1 h.2 (by intro c hc; cases hc; decide))) (front_ch ')' _ _ _)))) (front_lit _ _ _ _)))
  have := front_first (n := Pat.macro) (rest := linePatterns.drop 16) (by simp [macroWrite]) hfront
  have hs : linePatterns = linePatterns.take 15 ++ (.macro, macroRe) :: linePatterns.drop 16 := by decide +kernel
  rw [hs, firstPattern_skips _ _ _ ?_]
  · exact this
  · have hc : ((linePatterns.take 15).all fun x => !x.2.nul && !x.2.starts '[') = true := by decide +kernel
    intro x hx
    have hk := List.all_eq_true.1 hc x hx
    simp only [Bool.and_eq_true, Bool.not_eq_true'] at hk
    obtain ⟨r, hr⟩ : ∃ r, macroWrite name args ++ t = '[' :: r := ⟨_, rfl⟩
    exact all_nil _ '[' r _ hr hk.1 hk.2

theorem special_first {b : Bool} {c : Char} {t : Text} (hc : c = '<' ∨ c = '>' ∨ c = '&' ∨ c = '?') (hb : b = true → c ≠ '>') :
    firstPattern linePatterns ⟨b, [c] ++ t, []⟩ = some (.escapeHtml, [c], [], ⟨false, t, []⟩) := by
  have hset : ∀ c ∈ ['<', '>', '&', '?'], CharSet.mem ⟨false, [('<', '<'), ('>', '>'), ('&', '&'), ('?', '?')]⟩ c = true := by decide
  show firstPattern linePatterns ⟨b, c :: t, []⟩ = _
  rw [firstPattern_filter linePatterns c t _ rfl nul_check]
  have hcheck : (['<', '&', '?'].all fun c => (linePatterns.filter fun x => x.2.starts c) =
    [(.escapeHtml, .any [('<', '<'), ('>', '>'), ('&', '&'), ('?', '?')]), (.rest, .set ⟨true, [('\n', '\n')]⟩)]) = true := by decide +kernel
  have hother : c ∈ ['<', '&', '?'] → firstPattern (linePatterns.filter fun x => x.2.starts c) ⟨b, c :: t, []⟩ =
      some (.escapeHtml, [c], [], ⟨false, t, []⟩) := by
    intro h
    have := List.all_eq_true.1 hcheck c h
    rw [decide_eq_true_eq] at this
    rw [this]
    refine front_first (s := [c]) (by simp) (front_set (hset c ?_) _ _ _)
    simp only [List.mem_cons, List.not_mem_nil, or_false] at h ⊢
    rcases h with h | h | h <;> simp [h]
  rcases hc with rfl | rfl | rfl | rfl
  · exact hother (by simp)
  · rw [filter_greater]
    have hb : b = false := by cases b with
      | false => rfl
      | true => exact absurd rfl (hb rfl)
    subst hb
    rw [firstPattern_skip _ _ _ _ rfl]
    exact front_first (s := ['>']) (by simp) (front_set (hset _ (by simp)) _ _ _)
  · exact hother (by simp)
  · exact hother (by simp)

theorem mark_first (s : Style) (t : Text) (h : t.head? ≠ s.before.head?) :
    firstPattern bangs ⟨false, s.before ++ t, []⟩ = some (stylePat s, s.before, [], ⟨false, t, []⟩) := by
  have hq : (bangs.filter fun x => x.2.starts '\'') = [(.bolditalic, .lit t!"'''''"), (.bold, .lit t!"'''"), (.italic, .lit t!"''")] := by
    decide +kernel
  have hlit : ∀ (n : Pat) (s : Text) (rest : List (Pat × Re)), s ≠ [] →
      firstPattern ((n, Re.lit s) :: rest) ⟨false, s ++ t, []⟩ = some (n, s, [], ⟨false, t, []⟩) :=
    fun n s rest h => front_first h (front_lit _ _ _ _)
  have hone : ∀ (c : Char) (n : Pat) (r : Re) (s : Text), (bangs.filter fun x => x.2.starts c) = [(n, r)] → s.head? = some c → r = .lit s →
      firstPattern bangs ⟨false, s ++ t, []⟩ = some (n, s, [], ⟨false, t, []⟩) := by
    intro c n r s hf hs hr
    cases s with
    | nil => cases hs
    | cons d s =>
      cases hs
      rw [List.cons_append, filter_bangs, hf, hr]
      exact hlit n (c :: s) [] (by simp)
  cases s with
  | bold =>
    rw [show Style.before .bold ++ t = '\'' :: (t!"''" ++ t) from rfl, filter_bangs, hq, firstPattern_skip _ _ _ _ ?_]
    · exact hlit _ t!"'''" _ (by simp)
    · simp only [Re.lit, List.cons_append, seq_all, ch_one, List.flatMap_cons, List.flatMap_nil, List.append_nil, List.nil_append]
      cases t with
      | nil => rfl
      | cons c t => rw [ch_none (by simpa [Style.before] using h)]; rfl
  | italic =>
    have : ∀ s : Text, (Re.lit (t!"'''" ++ s)).all ⟨false, t!"''" ++ t, []⟩ = [] := by
      intro s
      cases t with
      | nil =>
        cases s <;> simp [Re.lit, seq_all, ch_all, ch_nil]
      | cons c t =>
        have hc : c ≠ '\'' := by simpa [Style.before] using h
        cases s <;> simp [Re.lit, seq_all, ch_all, hc]
    rw [show Style.before .italic ++ t = '\'' :: (t!"'" ++ t) from rfl, filter_bangs, hq]
    refine (firstPattern_skip _ (Re.lit t!"'''''") _ _ (this t!"''")).trans ((firstPattern_skip _ (Re.lit t!"'''") _ _ (this [])).trans ?_)
    exact hlit _ t!"''" _ (by simp)
  | underline => exact hone '_' .underline _ t!"__" (by decide +kernel) rfl rfl
  | strike => exact hone '~' .strike _ t!"~~" (by decide +kernel) rfl rfl
  | sub => exact hone ',' .subscript _ t!",," (by decide +kernel) rfl rfl
  | sup => exact hone '^' .superscript _ t!"^" (by decide +kernel) rfl rfl
  | mono => exact hone '`' .monospace _ t!"`" (by decide +kernel) rfl rfl
  | code =>
    rw [show Style.before .code ++ t = '{' :: (t!"{{" ++ t) from rfl, filter_bangs, bangs_brace, firstPattern_skip _ _ _ _ (by rfl)]
    exact hlit _ t!"{{{" _ (by simp)

/-! ### Lines -/

def eltToks : Elt → List LineToken
  | .plain u => plainToks u
  | .styled s u => pieceToks (.styled s u)
  | .link l => [(linkPat l, l.write, linkGroups l)]
  | .escaped l => [(linkPat l, '!' :: l.write, linkGroups l)]
  | .escapedMark s => [(stylePat s, '!' :: s.before, [])]
  | .macro name args => [(.macro, macroWrite name args, macroGroups name args)]
  | .special c => [(.escapeHtml, [c], [])]

theorem link_head (l : Link) (h : l.Fit) : ∃ c d r, l.write = c :: d :: r ∧ c ≠ '!' ∧ c ≠ '>' ∧ (c ≠ '[' ∨ d ≠ '[') ∧ NoStart (l.write ++ t) := by
  have hnum : ∀ n : Text, Filled digit n → ∃ d r, n = d :: r ∧ digit d = true := by
    rintro n ⟨h1, h2⟩
    cases n with
    | nil => exact absurd rfl h1
    | cons d r => rw [List.all_cons, Bool.and_eq_true] at h2; exact ⟨d, r, rfl, h2.1⟩
  cases l with
  | entry long n =>
    obtain ⟨d, r, rfl, hd⟩ := hnum n h
    cases long with
    | false => exact ⟨_, _, _, rfl, by decide, by decide, by simp, noStart_mark (by decide) (by decide) (by decide)⟩
    | true => exact ⟨_, _, _, rfl, by decide, by decide, by simp, noStart_word (v := t!"entry") (by simp)⟩
  | query long n =>
    obtain ⟨d, r, rfl, hd⟩ := hnum n h
    cases long with
    | false => exact ⟨_, _, _, rfl, by decide, by decide, by simp, noStart_mark (by decide) (by decide) (by decide)⟩
    | true => exact ⟨_, _, _, rfl, by decide, by decide, by simp, noStart_word (v := t!"query") (by simp)⟩
  | game form n =>
    obtain ⟨d, r, rfl, hd⟩ := hnum n h
    revert form
    refine fin3 ?_ ?_ ?_
    · intro _; exact ⟨_, _, _, rfl, by decide, by decide, by simp, noStart_m hd⟩
    · intro _; exact ⟨_, _, _, rfl, by decide, by decide, by simp, noStart_word (v := t!"match") (by simp)⟩
    · intro _; exact ⟨_, _, _, rfl, by decide, by decide, Or.inr (digit_ne hd (by decide)), noStart_mark (by decide) (by decide) (by decide)⟩
  | page name => exact ⟨_, _, _, rfl, by decide, by decide, by simp, noStart_mark (by decide) (by decide) (by decide)⟩
  | camel ps =>
    obtain ⟨h2, hp⟩ := h
    match ps, h2, hp with
    | p :: q :: ps, _, hp =>
      obtain ⟨hc, hu, hu'⟩ := hp p (List.mem_cons_self ..)
      obtain ⟨c, u⟩ := p
      cases u with
      | nil => exact absurd rfl hu
      | cons d u =>
        have hne : ∀ x, capital x = false → c ≠ x := by rintro x hx rfl; rw [hc] at hx; cases hx
        refine ⟨c, d, _, rfl, hne _ (by decide), hne _ (by decide), Or.inl (hne _ (by decide)), ?_⟩
        obtain ⟨r, hr, h1, h2⟩ := mem_ranges (s := ⟨false, [('A', 'Z')]⟩) rfl hc
        simp only [List.mem_cons, List.not_mem_nil, or_false] at hr
        subst hr
        refine noStart_mark ?_ (hne _ (by decide)) ?_
        · cases hpl : Document.plain c with
          | false => rfl
          | true => exact absurd ⟨('A', 'Z'), by simp [marks], h1, h2⟩ (plain_not hpl)
        · cases hdg : digit c with
          | false => rfl
          | true =>
            obtain ⟨r, hr, h3, h4⟩ := mem_ranges (s := ⟨false, [('0', '9')]⟩) rfl hdg
            simp only [List.mem_cons, List.not_mem_nil, or_false] at hr
            subst hr
            exact absurd (Char.le_trans h1 h4) (by decide)
  | web secure r =>
    cases secure with
    | false => exact ⟨_, _, _, rfl, by decide, by decide, by simp, noStart_word (v := t!"http") (by simp)⟩
    | true => exact ⟨_, _, _, rfl, by decide, by decide, by simp, noStart_word (v := t!"https") (by simp)⟩
  | named secure r d =>
    cases d <;> exact ⟨_, _, _, rfl, by decide, by decide, by simp, noStart_mark (by decide) (by decide) (by decide)⟩

theorem before_mark (s : Style) (t : Text) : NoStart (s.before ++ t) := by
  cases s <;> exact noStart_mark (by decide) (by decide) (by decide)
theorem after_mark (s : Style) (t : Text) : NoStart (s.after ++ t) := by
  cases s <;> exact noStart_mark (by decide) (by decide) (by decide)

theorem write_noStart (l : Mixed.Line) (h : Mixed.Fit l) : NoStart (Mixed.write l) := by
  induction l with
  | nil => exact noStart_nil
  | cons e l ih =>
    obtain ⟨h1, _, h3⟩ := h
    rw [Mixed.write, List.flatMap_cons]
    cases e with
    | plain u =>
      intro v h0 hv hl
      rw [Elt.write, ← List.append_assoc] at hl
      refine ih h3 (v ++ u) (by simp [h0]) ?_ hl
      rw [List.all_append, hv]
      exact h1
    | styled s u => rw [Elt.write, List.append_assoc, List.append_assoc]; exact before_mark s _
    | link k => obtain ⟨_, _, _, _, _, _, _, h⟩ := link_head k h1; exact h
    | escaped k => exact noStart_mark (by decide) (by decide) (by decide)
    | escapedMark s => exact noStart_mark (by decide) (by decide) (by decide)
    | «macro» name args => exact noStart_mark (c := '[') (by decide) (by decide) (by decide)
    | special c => rcases h1 with rfl | rfl | rfl | rfl <;> exact noStart_mark (by decide) (by decide) (by decide)

theorem toks_mixed (l : Mixed.Line) (start : Bool) (h : Mixed.Fit l)
    (hs : start = true → (Mixed.write l).head? ≠ some ' ' ∧ (Mixed.write l).head? ≠ some '>') :
    Toks start (Mixed.write l) (l.flatMap eltToks) := by
  induction l generalizing start with
  | nil => exact toks_nil start
  | cons e l ih =>
    obtain ⟨h1, h2, h3⟩ := h
    have hrest := ih false h3 (by simp)
    rw [Mixed.write, List.flatMap_cons] at hs ⊢
    rw [List.flatMap_cons]
    cases e with
    | plain u =>
      refine toks_plain' h1 (fun h => (hs h).1) (write_noStart l h3) (ih _ h3 ?_)
      intro hb
      simp only [Bool.and_eq_true, List.isEmpty_iff] at hb
      have := hs hb.1
      rw [hb.2] at this
      exact this
    | styled s u =>
      obtain ⟨hu0, hu⟩ := h1
      have hafter : Toks false (s.after ++ Mixed.write l) ((stylePat' s, s.after, []) :: l.flatMap eltToks) :=
        toks_cons (after_ne s) (style_last s _ h2) rfl hrest
      have hmid := toks_plain' (start := false) hu (by simp) (after_mark s (Mixed.write l)) (by simpa using hafter)
      have hhead : (u ++ (s.after ++ Mixed.write l)).head? ≠ s.before.head? := by
        exact calm_ne (calm_plain hu0 hu) (before_head s)
      have := toks_cons (start := start) (before_ne s) (style_first s start (u ++ (s.after ++ Mixed.write l)) hhead (by
        intro hc
        subst hc
        constructor
        · simp [hu0]
        · intro hk
          cases u with
          | nil => exact hu0 rfl
          | cons c u => simp [Style.after] at hk)) rfl hmid
      simpa [Elt.write, eltToks, pieceToks, Mixed.write] using this
    | link k =>
      obtain ⟨c, d, r, e1, e2, _, e3, _⟩ := link_head (t := []) k h1
      have hf := link_first k start (Mixed.write l) h1 h2
      refine toks_cons (m := k.write) (q := ⟨false, Mixed.write l, linkGroups k⟩) (by rw [e1]; simp) ?_ rfl hrest
      show firstPattern linePatterns ⟨start, k.write ++ Mixed.write l, []⟩ = _
      rw [e1] at hf ⊢
      exact first_unbang e2 (macro_none e3) hf
    | escaped k =>
      have hf := link_first k false (Mixed.write l) h1 h2
      exact toks_cons (m := '!' :: k.write) (by simp) (first_bang hf) rfl hrest
    | escapedMark s =>
      exact toks_cons (m := '!' :: s.before) (by simp) (first_bang (mark_first s _ h2)) rfl hrest
    | «macro» name args =>
      exact toks_cons (m := macroWrite name args) (by simp [macroWrite]) (macro_first h1.1 h1.2.1) rfl hrest
    | special c =>
      refine toks_cons (m := [c]) (by simp) (special_first h1 ?_) rfl hrest
      intro hb hc
      exact (hs hb).2 (by simp [Elt.write, hc])

end Bglib.Doc
