import Verif.Lemmas.DocTokens
/-
The tokens of pieces, headings, items, rows and quotations.
-/
namespace Bglib.Doc
open Spec Spec.Document

/-- A match: the pattern, the text, the groups. -/
abbrev LineToken := Pat × Text × List (Text × Text)

/-- The line, or what is left of it, is taken apart into `xs`. -/
def Toks (start : Bool) (t : Text) (xs : List LineToken) : Prop :=
  ∀ fuel, t.length < fuel → findAll linePatterns fuel ⟨start, t, []⟩ = xs

theorem toks_nil (start : Bool) : Toks start [] [] := by
  intro fuel h
  cases fuel with
  | zero => cases h
  | succ n =>
    have e : firstPattern linePatterns ⟨start, [], []⟩ = none := by cases start <;> decide +kernel
    simp only [findAll, e]

theorem toks_cons {start : Bool} {n : Pat} {m t : Text} {g : List (Text × Text)} {q : Place} {xs : List LineToken} (hm : m ≠ [])
    (h : firstPattern linePatterns ⟨start, m ++ t, []⟩ = some (n, m, g, q)) (hq : q.rest = t) (ht : Toks false t xs) :
    Toks start (m ++ t) ((n, m, g) :: xs) := by
  intro fuel hf
  cases fuel with
  | zero => cases hf
  | succ k =>
    have hl : 0 < m.length := List.length_pos_iff.2 hm
    rw [List.length_append] at hf
    simp only [findAll, h, hq, List.length_append]
    rw [if_pos (by omega), ht k (by omega)]

theorem toks_finditer {t : Text} {xs : List LineToken} (h : Toks true t xs) : finditer linePatterns t = xs :=
  h _ (Nat.lt_succ_self _)

/-- The tokens of plain text. -/
def plainToks (u : Text) : List LineToken := u.map fun c => (.rest, [c], [])

theorem toks_plain {start : Bool} {u t : Text} {xs : List LineToken} (hu : u.all plain = true)
    (hs : start = true → u.head? ≠ some ' ') (h0 : u = [] → start = false) (hq : Quiet (u ++ t)) (ht : Toks false t xs) :
    Toks start (u ++ t) (plainToks u ++ xs) := by
  induction u generalizing start with
  | nil => rw [h0 rfl]; exact ht
  | cons c u ih =>
    rw [List.all_cons, Bool.and_eq_true] at hu
    have hq' : Quiet (u ++ t) := fun d hd => hq d (List.mem_cons_of_mem _ hd)
    refine toks_cons (m := [c]) (by simp) (plain_first start c (u ++ t) hu.1 ?_ hq) rfl
      (ih hu.2 (by simp) (by simp) hq')
    intro h e
    exact hs h (by simp [e])

/-- The pattern of what stands in front of a stretch. -/
def stylePat : Style → Pat
  | .bold => .bold
  | .italic => .italic
  | .underline => .underline
  | .strike => .strike
  | .sub => .subscript
  | .sup => .superscript
  | .mono => .monospace
  | .code => .monospaceStart

def stylePat' : Style → Pat
  | .code => .monospaceEnd
  | s => stylePat s

theorem nul_check : (linePatterns.all fun x => !x.2.nul) = true := by decide +kernel

theorem filter_quote : (linePatterns.filter fun x => x.2.starts '\'') = [(.bolditalic, .seq bang (.lit t!"'''''")),
  (.bold, .seq bang (.lit t!"'''")), (.italic, .seq bang (.lit t!"''")), (.rest, .set ⟨true, [('\n', '\n')]⟩)] := by decide +kernel

/-- simp set: evaluation of patterns -/
theorem ch_all (c d : Char) (b : Bool) (t : Text) (g : List (Text × Text)) :
    (Re.ch c).all ⟨b, d :: t, g⟩ = if d = c then [⟨false, t, g⟩] else [] := by
  simp only [Re.ch, Re.all]
  by_cases h : d = c
  · rw [if_pos ((charSet_single c d).2 h), if_pos h]
  · rw [if_neg h, if_neg (fun k => h ((charSet_single c d).1 k))]

theorem ch_nil (c : Char) (b : Bool) (g : List (Text × Text)) : (Re.ch c).all ⟨b, [], g⟩ = [] := rfl

theorem seq_all (a b : Re) (p : Place) : (Re.seq a b).all p = (a.all p).flatMap b.all := rfl

theorem bang_all (b : Bool) (c : Char) (t : Text) (g : List (Text × Text)) (h : c ≠ '!') :
    bang.all ⟨b, c :: t, g⟩ = [⟨b, c :: t, g⟩] := by
  simp only [bang, Re.opt, Re.all, Option.getD_some, repAll]
  rw [ch_all]
  simp [h]

theorem alt_all (a b : Re) (p : Place) : (Re.alt a b).all p = a.all p ++ b.all p := rfl
theorem bol_all (b : Bool) (t : Text) (g : List (Text × Text)) :
    Re.bol.all ⟨b, t, g⟩ = if b = true then [⟨b, t, g⟩] else [] := rfl
theorem eol_all (b : Bool) (t : Text) (g : List (Text × Text)) :
    Re.eol.all ⟨b, t, g⟩ = if t = [] ∨ t = ['\n'] then [⟨b, t, g⟩] else [] := rfl

theorem between1 (b b' : Bool) (c : Char) (t : Text) (g g' : List (Text × Text)) :
    between ⟨b, c :: t, g⟩ ⟨b', t, g'⟩ = [c] := between_eq (s := [c]) rfl
theorem between2 (b b' : Bool) (c d : Char) (t : Text) (g g' : List (Text × Text)) :
    between ⟨b, c :: d :: t, g⟩ ⟨b', t, g'⟩ = [c, d] := between_eq (s := [c, d]) rfl
theorem between3 (b b' : Bool) (c d e : Char) (t : Text) (g g' : List (Text × Text)) :
    between ⟨b, c :: d :: e :: t, g⟩ ⟨b', t, g'⟩ = [c, d, e] := between_eq (s := [c, d, e]) rfl

theorem filter_underscore : (linePatterns.filter fun x => x.2.starts '_') = [(.underline, .seq bang (.lit t!"__")),
  (.rest, .set ⟨true, [('\n', '\n')]⟩)] := by decide +kernel
theorem filter_tilde : (linePatterns.filter fun x => x.2.starts '~') = [(.strike, .seq bang (.lit t!"~~")),
  (.rest, .set ⟨true, [('\n', '\n')]⟩)] := by decide +kernel
theorem filter_comma : (linePatterns.filter fun x => x.2.starts ',') = [(.subscript, .seq bang (.lit t!",,")),
  (.rest, .set ⟨true, [('\n', '\n')]⟩)] := by decide +kernel
theorem filter_hat : (linePatterns.filter fun x => x.2.starts '^') = [(.superscript, .seq bang (.ch '^')),
  (.rest, .set ⟨true, [('\n', '\n')]⟩)] := by decide +kernel
theorem filter_back : (linePatterns.filter fun x => x.2.starts '`') = [(.monospace, .seq bang (.ch '`')),
  (.rest, .set ⟨true, [('\n', '\n')]⟩)] := by decide +kernel
theorem filter_brace : (linePatterns.filter fun x => x.2.starts '{') =
  [(.preformatStart, .all' [bang, .bol, .lit t!"{{{", .eol]), (.monospaceStart, .seq bang (.lit t!"{{{")),
  (.queryLink, .seq bang (.alt (.seq (.lit t!"query:") (.plus (.any digits)))
    (.all' [.ch '{', .plus (.any digits), .ch '}']))), (.rest, .set ⟨true, [('\n', '\n')]⟩)] := by decide +kernel
theorem filter_unbrace : (linePatterns.filter fun x => x.2.starts '}') =
  [(.preformatEnd, .all' [bang, .bol, .lit t!"}}}", .eol]), (.monospaceEnd, .seq bang (.lit t!"}}}")),
  (.rest, .set ⟨true, [('\n', '\n')]⟩)] := by decide +kernel
theorem filter_equals : (linePatterns.filter fun x => x.2.starts '=') =
  [(.h3, .seq bang (.lit t!"===")), (.h2, .seq bang (.lit t!"==")), (.h1, .seq bang (.ch '=')),
  (.rest, .set ⟨true, [('\n', '\n')]⟩)] := by decide +kernel
theorem filter_bar : (linePatterns.filter fun x => x.2.starts '|') =
  [(.tableEnd, .all' [bang, .lit t!"||", .star (.any spaces), .eol]), (.tableCell, .seq bang (.lit t!"||")),
  (.rest, .set ⟨true, [('\n', '\n')]⟩)] := by decide +kernel
theorem filter_colon : (linePatterns.filter fun x => x.2.starts ':') = [(.definitionHeader, .seq (.lit t!"::") .eol),
  (.rest, .set ⟨true, [('\n', '\n')]⟩)] := by decide +kernel
theorem filter_greater : (linePatterns.filter fun x => x.2.starts '>') = [(.citation, .all' [.bol, .plus (.ch '>'), .ch ' ']),
  (.escapeHtml, .any [('<', '<'), ('>', '>'), ('&', '&'), ('?', '?')]), (.rest, .set ⟨true, [('\n', '\n')]⟩)] := by decide +kernel
theorem filter_blank : (linePatterns.filter fun x => x.2.starts ' ') = [(.itemize, itemizeRe), (.quote, .seq .bol (.rep (.ch ' ') 2 none)),
  (.rest, .set ⟨true, [('\n', '\n')]⟩)] := by decide +kernel

/-- Trying the patterns that may begin with a character. -/
macro "try_patterns " c:term:max f:term:max : tactic => `(tactic| (
  simp only [List.cons_append, List.nil_append]
  rw [firstPattern_filter linePatterns $c _ _ rfl nul_check, $f:term]
  simp only [firstPattern, Re.all', seq_all, bang_all _ _ _ _ (show $c ≠ '!' by decide), Re.lit, ch_all, bol_all,
    List.flatMap_cons, List.flatMap_nil, List.append_nil, if_true]))

theorem style_first (s : Style) (b : Bool) (t : Text) (h : t.head? ≠ s.before.head?) (h' : s = .code → t ≠ [] ∧ t ≠ ['\n']) :
    firstPattern linePatterns ⟨b, s.before ++ t, []⟩ = some (stylePat s, s.before, [], ⟨false, t, []⟩) := by
  cases s with
  | bold =>
    simp only [Style.before]
    try_patterns '\'' filter_quote
    cases t with
    | nil => simp [ch_nil, between1, between2, between3, stylePat]
    | cons c t =>
      have : c ≠ '\'' := by simpa [Style.before] using h
      simp [ch_all, this, between1, between2, between3, stylePat]
  | italic =>
    simp only [Style.before]
    try_patterns '\'' filter_quote
    cases t with
    | nil => simp [ch_nil, between1, between2, between3, stylePat]
    | cons c t =>
      have : c ≠ '\'' := by simpa [Style.before] using h
      simp [ch_all, this, between1, between2, between3, stylePat]
  | underline =>
    simp only [Style.before]
    try_patterns '_' filter_underscore
    simp [between1, between2, between3, stylePat]
  | strike =>
    simp only [Style.before]
    try_patterns '~' filter_tilde
    simp [between1, between2, between3, stylePat]
  | sub =>
    simp only [Style.before]
    try_patterns ',' filter_comma
    simp [between1, between2, between3, stylePat]
  | sup =>
    simp only [Style.before]
    try_patterns '^' filter_hat
    simp [between1, between2, between3, stylePat]
  | mono =>
    simp only [Style.before]
    try_patterns '`' filter_back
    simp [between1, between2, between3, stylePat]
  | code =>
    simp only [Style.before]
    try_patterns '{' filter_brace
    obtain ⟨h1, h2⟩ := h' rfl
    cases b <;> simp [between1, between2, between3, stylePat, eol_all, h1, h2, ch_all, seq_all]

theorem style_last (s : Style) (t : Text) (h : t.head? ≠ s.after.head?) :
    firstPattern linePatterns ⟨false, s.after ++ t, []⟩ = some (stylePat' s, s.after, [], ⟨false, t, []⟩) := by
  by_cases hs : s = .code
  · subst hs
    simp only [Style.after]
    try_patterns '}' filter_unbrace
    simp [between1, between2, between3, stylePat']
  · have e1 : s.after = s.before := by cases s <;> first | rfl | exact absurd rfl hs
    have e2 : stylePat' s = stylePat s := by cases s <;> first | rfl | exact absurd rfl hs
    rw [e1, e2]
    exact style_first s false t (by rw [← e1]; exact h) (fun h => absurd h hs)

/-- The pattern of a heading. -/
def rulePat : Fin 3 → Pat
  | 0 => .h1
  | 1 => .h2
  | 2 => .h3

theorem rule_first (n : Fin 3) (b : Bool) (t : Text) (h : t.head? ≠ some '=') :
    firstPattern linePatterns ⟨b, rule n ++ t, []⟩ = some (rulePat n, rule n, [], ⟨false, t, []⟩) := by
  match n with
  | 0 =>
    simp only [rule, rulePat, Fin.val_zero, Nat.zero_add, List.replicate_succ, List.replicate_zero]
    try_patterns '=' filter_equals
    cases t with
    | nil => simp [ch_nil, between1, between2, between3]
    | cons c t =>
      have : c ≠ '=' := by simpa using h
      simp [ch_all, this, between1, between2, between3]
  | 1 =>
    simp only [rule, rulePat, Fin.val_one, List.replicate_succ, List.replicate_zero]
    try_patterns '=' filter_equals
    cases t with
    | nil => simp [ch_nil, between1, between2, between3]
    | cons c t =>
      have : c ≠ '=' := by simpa using h
      simp [ch_all, this, between1, between2, between3]
  | 2 =>
    simp only [rule, rulePat, Fin.val_two, List.replicate_succ, List.replicate_zero]
    try_patterns '=' filter_equals
    simp [between1, between2, between3]

theorem cell_first (b : Bool) (t : Text) (h : '|' ∈ t) :
    firstPattern linePatterns ⟨b, t!"||" ++ t, []⟩ = some (.tableCell, t!"||", [], ⟨false, t, []⟩) := by
  try_patterns '|' filter_bar
  have e : ((Re.any spaces).star.all ⟨false, t, []⟩).flatMap Re.eol.all = [] := by
    apply List.eq_nil_iff_forall_not_mem.2
    intro q hq
    obtain ⟨r, h1, h2⟩ := List.mem_flatMap.1 hq
    obtain ⟨s, k1, k2⟩ := all_lang _ _ _ h1
    have k3 : r.rest = [] ∨ r.rest = ['\n'] := by
      rw [eol_all] at h2
      split at h2
      · assumption
      · cases h2
    have k4 : ∀ c ∈ s, CharSet.mem ⟨false, spaces⟩ c = true := by
      obtain ⟨l, _, _, hl, e⟩ := k2
      intro c hc
      rw [e] at hc
      obtain ⟨x, hx, hc⟩ := List.mem_flatten.1 hc
      obtain ⟨d, hd, e'⟩ := hl x hx
      rw [e', List.mem_singleton] at hc
      rw [hc]; exact hd
    have k5 : '|' ∈ s ++ r.rest := by rw [← k1]; exact h
    rcases List.mem_append.1 k5 with k | k
    · exact absurd (k4 _ k) (by decide)
    · rcases k3 with k3 | k3 <;> rw [k3] at k <;> exact absurd k (by decide)
  rw [e]
  simp [between1, between2, between3]

theorem end_first (b : Bool) : firstPattern linePatterns ⟨b, t!"||", []⟩ = some (.tableEnd, t!"||", [], ⟨false, [], []⟩) := by
  cases b <;> rfl

theorem colons_first (b : Bool) : firstPattern linePatterns ⟨b, t!"::", []⟩ = some (.definitionHeader, t!"::", [], ⟨false, [], []⟩) := by
  cases b <;> rfl

/-! ### Repetitions -/

/-- Characters of a set as many as there are come first. -/
theorem plus_head (c : Char) (n : Nat) (t : Text) (b : Bool) (g : List (Text × Text)) (h : t.head? ≠ some c) (k min : Nat)
    (hk : n ≤ k) (hm : min ≤ n) :
    ∃ l, repAll (Re.ch c).all k min ⟨b, List.replicate n c ++ t, g⟩ = ⟨if n = 0 then b else false, t, g⟩ :: l ∧
      ∀ q ∈ l, ∃ m, 0 < m ∧ m ≤ n ∧ q.rest = List.replicate m c ++ t := by
  induction n generalizing b k min with
  | zero =>
    have hm : min = 0 := by omega
    subst hm
    have e : (Re.ch c).all ⟨b, t, g⟩ = [] := by
      cases t with
      | nil => rfl
      | cons d t => rw [ch_all, if_neg (by simpa using h)]
    refine ⟨[], ?_, by simp⟩
    cases k with
    | zero => simp [repAll]
    | succ k => simp [repAll, e]
  | succ n ih =>
    cases k with
    | zero => omega
    | succ k =>
      obtain ⟨l, h1, h2⟩ := ih false k (min - 1) (by omega) (by omega)
      refine ⟨l ++ if min = 0 then [⟨b, List.replicate (n + 1) c ++ t, g⟩] else [], ?_, ?_⟩
      · simp only [List.replicate_succ, List.cons_append, repAll, ch_all, if_true]
        rw [List.filter_cons_of_pos (by simp), List.filter_nil, List.flatMap_cons, List.flatMap_nil, List.append_nil, h1]
        simp
      · intro q hq
        rcases List.mem_append.1 hq with hq | hq
        · obtain ⟨m, k1, k2, k3⟩ := h2 q hq
          exact ⟨m, k1, by omega, k3⟩
        · split at hq
          · rw [List.mem_singleton] at hq
            exact ⟨n + 1, by omega, by omega, by rw [hq]⟩
          · cases hq

theorem flatMap_head {α β : Type} {f : α → List β} {a : α} {l : List α} {b : β} {m : List β} (h : f a = b :: m) :
    ∃ m', (a :: l).flatMap f = b :: m' := ⟨m ++ l.flatMap f, by rw [List.flatMap_cons, h]; rfl⟩

theorem firstPattern_head {α : Type} (n : α) (r : Re) (rest : List (α × Re)) (p q : Place) (l : List Place) (h : r.all p = q :: l) :
    firstPattern ((n, r) :: rest) p = some (n, between p q, q.groups, q) := by
  simp only [firstPattern, h]

theorem cited_first (n : Nat) (t : Text) :
    firstPattern linePatterns ⟨true, (List.replicate (n + 1) '>' ++ [' ']) ++ t, []⟩ =
      some (.citation, List.replicate (n + 1) '>' ++ [' '], [], ⟨false, t, []⟩) := by
  rw [firstPattern_filter linePatterns '>' (List.replicate n '>' ++ ' ' :: t) _ (by simp [List.replicate_succ]) nul_check, filter_greater]
  obtain ⟨l, h1, _⟩ := plus_head '>' (n + 1) (' ' :: t) true [] (by simp) (List.replicate (n + 1) '>' ++ [' '] ++ t).length 1
    (by simp) (by omega)
  have e : ∃ m, (Re.all' [.bol, .plus (.ch '>'), .ch ' ']).all ⟨true, List.replicate (n + 1) '>' ++ [' '] ++ t, []⟩ =
      ⟨false, t, []⟩ :: m := by
    simp only [Re.all', seq_all, bol_all, if_true, List.flatMap_cons, List.flatMap_nil, List.append_nil]
    have e2 : (Re.ch '>').plus.all ⟨true, List.replicate (n + 1) '>' ++ [' '] ++ t, []⟩ = ⟨false, ' ' :: t, []⟩ :: l := by
      simp only [Re.plus, Re.all, Option.getD_none]
      rw [List.append_assoc] at h1 ⊢
      exact h1
    rw [e2]
    exact flatMap_head (m := []) (by rw [ch_all, if_pos rfl])
  obtain ⟨m, e⟩ := e
  rw [firstPattern_head _ _ _ _ _ _ e, between_eq (s := List.replicate (n + 1) '>' ++ [' ']) rfl]

/-! ### Items -/

theorem fin8 {P : Fin 8 → Prop} (h0 : P 0) (h1 : P 1) (h2 : P 2) (h3 : P 3) (h4 : P 4) (h5 : P 5) (h6 : P 6) (h7 : P 7) :
    ∀ n, P n
  | 0 => h0 | 1 => h1 | 2 => h2 | 3 => h3 | 4 => h4 | 5 => h5 | 6 => h6 | 7 => h7

theorem fin3 {P : Fin 3 → Prop} (h0 : P 0) (h1 : P 1) (h2 : P 2) : ∀ n, P n
  | 0 => h0 | 1 => h1 | 2 => h2

/-- The design of a list. -/
def markDesign : Mark → Design
  | .star => .star
  | .sign _ _ => .sign
  | .numeric _ _ => .numeric
  | .alpha _ _ => .alpha
  | .roman _ _ => .roman

/-- The alternatives of an item. -/
def itemAlts : Re := .alts [
    .group t!"star" (.ch '*'),
    .group t!"sign" (.alt (.group t!"plus" (.rep (.ch '+') 1 (some 3))) (.group t!"minus" (.rep (.ch '-') 1 (some 3)))),
    .group t!"ordered_numeric" (.seq (.any [('1', '8')]) (.opt (.ch '.'))),
    .group t!"ordered_alpha" (.seq (.any [('a', 'h')]) (.opt (.ch '.'))),
    .group t!"ordered_roman" (.seq (.plus (.any [('i', 'i'), ('v', 'v')])) (.opt (.ch '.')))]

theorem itemizeRe_eq : itemizeRe = .seq .bol (.seq (.plus (.ch ' ')) (.seq itemAlts (.ch ' '))) := rfl

/-- Characters of a set as many as there are come first. -/
theorem rep_head (s : CharSet) (u t : Text) (b : Bool) (g : List (Text × Text)) (hu : ∀ c ∈ u, s.mem c = true)
    (ht : ∀ c, t.head? = some c → s.mem c = false) (k min : Nat) (hk : u.length ≤ k) (hm : min ≤ u.length) :
    ∃ l, repAll (Re.set s).all k min ⟨b, u ++ t, g⟩ = ⟨if u = [] then b else false, t, g⟩ :: l := by
  induction u generalizing b k min with
  | nil =>
    have hm : min = 0 := by simpa using hm
    subst hm
    have e : (Re.set s).all ⟨b, t, g⟩ = [] := by
      cases t with
      | nil => rfl
      | cons d t => simp only [Re.all]; rw [ht d rfl]; rfl
    refine ⟨[], ?_⟩
    cases k with
    | zero => simp [repAll]
    | succ k => simp [repAll, e]
  | cons c u ih =>
    cases k with
    | zero => simp at hk
    | succ k =>
      rw [List.length_cons] at hk hm
      obtain ⟨l, h1⟩ := ih false (fun d hd => hu d (List.mem_cons_of_mem _ hd)) k (min - 1) (by omega) (by omega)
      have e : (Re.set s).all ⟨b, c :: (u ++ t), g⟩ = [⟨false, u ++ t, g⟩] := by
        simp only [Re.all]; rw [hu c (List.mem_cons_self ..)]; rfl
      refine ⟨l ++ if min = 0 then [⟨b, c :: (u ++ t), g⟩] else [], ?_⟩
      simp only [List.cons_append, repAll, e]
      rw [List.filter_cons_of_pos (by simp), List.filter_nil, List.flatMap_cons, List.flatMap_nil, List.append_nil, h1]
      simp

def MarkOk (m : Mark) (t : Text) : Prop :=
  ∃ g l, (Re.seq itemAlts (.ch ' ')).all ⟨false, m.write ++ ' ' :: t, []⟩ = ⟨false, t, g⟩ :: l ∧ designOf g = markDesign m ∧
    (groupOf g t!"sign").isSome = m.isSign

theorem opt_dot (d : Char) (b : Bool) (t : Text) (g : List (Text × Text)) :
    (Re.opt (.ch '.')).all ⟨b, d :: t, g⟩ = (if d = '.' then [⟨false, t, g⟩] else []) ++ [⟨b, d :: t, g⟩] := by
  simp only [Re.opt, Re.all, Option.getD_some, repAll, ch_all]
  by_cases h : d = '.' <;> simp [h]

theorem group_all (n : Text) (r : Re) (p : Place) :
    (Re.group n r).all p = (r.all p).map fun q => { q with groups := (n, between p q) :: q.groups } := rfl

/-- A dot or none, then a blank. -/
theorem dot_blank (n : Text) (p : Place) (dot : Bool) (t : Text) (b : Bool) :
    ∃ g l, (((Re.opt (.ch '.')).all ⟨b, dotted [] dot ++ ' ' :: t, []⟩).map
      (fun q => ({ q with groups := (n, between p q) :: q.groups } : Place))).flatMap (Re.ch ' ').all = ⟨false, t, [(n, g)]⟩ :: l := by
  cases dot with
  | true =>
    refine ⟨between p ⟨false, ' ' :: t, []⟩, [], ?_⟩
    simp [dotted, opt_dot, ch_all]
  | false =>
    refine ⟨between p ⟨b, ' ' :: t, []⟩, [], ?_⟩
    simp [dotted, opt_dot, ch_all]

theorem dotted_append (u : Text) (dot : Bool) (t : Text) : dotted u dot ++ t = u ++ (dotted [] dot ++ t) := by
  cases dot <;> simp [dotted]

theorem append_head {α : Type} {a b : List α} {x : α} {l : List α} (h : a = x :: l) : ∃ m, a ++ b = x :: m :=
  ⟨l ++ b, by rw [h]; rfl⟩

theorem mark_numeric (n : Fin 8) (dot : Bool) (t : Text) : MarkOk (.numeric n dot) t := by
  have h1 : ∀ n : Fin 8, (Re.group t!"star" (.ch '*')).starts (Char.ofNat ('1'.toNat + n)) = false := by decide
  have h2 : ∀ n : Fin 8, (Re.group t!"sign" (.alt (.group t!"plus" (.rep (.ch '+') 1 (some 3)))
    (.group t!"minus" (.rep (.ch '-') 1 (some 3))))).starts (Char.ofNat ('1'.toNat + n)) = false := by decide
  have h3 : ∀ n : Fin 8, CharSet.mem ⟨false, [('1', '8')]⟩ (Char.ofNat ('1'.toNat + n)) = true := by decide
  simp only [MarkOk, Mark.write]
  rw [dotted_append]
  generalize hc : Char.ofNat ('1'.toNat + n) = c
  have h1 := h1 n; have h2 := h2 n; have h3 := h3 n
  rw [hc] at h1 h2 h3
  simp only [itemAlts, Re.alts, seq_all, alt_all, List.cons_append, List.nil_append]
  rw [all_nil _ c _ _ rfl (by rfl) h1, all_nil _ c _ _ rfl (by rfl) h2, List.nil_append, List.nil_append, List.flatMap_append]
  have e : (Re.any [('1', '8')]).all ⟨false, c :: (dotted [] dot ++ ' ' :: t), []⟩ = [⟨false, dotted [] dot ++ ' ' :: t, []⟩] := by
    simp only [Re.any, Re.all]; rw [h3]; rfl
  rw [group_all, seq_all, e, List.flatMap_cons, List.flatMap_nil, List.append_nil]
  obtain ⟨g, l, h⟩ := dot_blank t!"ordered_numeric" ⟨false, c :: (dotted [] dot ++ ' ' :: t), []⟩ dot t false
  obtain ⟨l', h'⟩ := append_head h
  exact ⟨_, l', h', rfl, rfl⟩

theorem mark_alpha (n : Fin 8) (dot : Bool) (t : Text) : MarkOk (.alpha n dot) t := by
  have h1 : ∀ n : Fin 8, (Re.group t!"star" (.ch '*')).starts (Char.ofNat ('a'.toNat + n)) = false := by decide
  have h2 : ∀ n : Fin 8, (Re.group t!"sign" (.alt (.group t!"plus" (.rep (.ch '+') 1 (some 3)))
    (.group t!"minus" (.rep (.ch '-') 1 (some 3))))).starts (Char.ofNat ('a'.toNat + n)) = false := by decide
  have h4 : ∀ n : Fin 8, (Re.group t!"ordered_numeric" (.seq (.any [('1', '8')]) (.opt (.ch '.')))).starts
    (Char.ofNat ('a'.toNat + n)) = false := by decide
  have h3 : ∀ n : Fin 8, CharSet.mem ⟨false, [('a', 'h')]⟩ (Char.ofNat ('a'.toNat + n)) = true := by decide
  simp only [MarkOk, Mark.write]
  rw [dotted_append]
  generalize hc : Char.ofNat ('a'.toNat + n) = c
  have h1 := h1 n; have h2 := h2 n; have h3 := h3 n; have h4 := h4 n
  rw [hc] at h1 h2 h3 h4
  simp only [itemAlts, Re.alts, seq_all, alt_all, List.cons_append, List.nil_append]
  rw [all_nil _ c _ _ rfl (by rfl) h1, all_nil _ c _ _ rfl (by rfl) h2, all_nil _ c _ _ rfl (by rfl) h4,
    List.nil_append, List.nil_append, List.nil_append, List.flatMap_append]
  have e : (Re.any [('a', 'h')]).all ⟨false, c :: (dotted [] dot ++ ' ' :: t), []⟩ = [⟨false, dotted [] dot ++ ' ' :: t, []⟩] := by
    simp only [Re.any, Re.all]; rw [h3]; rfl
  rw [group_all, seq_all, e, List.flatMap_cons, List.flatMap_nil, List.append_nil]
  obtain ⟨g, l, h⟩ := dot_blank t!"ordered_alpha" ⟨false, c :: (dotted [] dot ++ ' ' :: t), []⟩ dot t false
  obtain ⟨l', h'⟩ := append_head h
  exact ⟨_, l', h', rfl, rfl⟩

theorem mark_roman (n : Fin 8) (dot : Bool) (t : Text) : MarkOk (.roman n dot) t := by
  have hu : ∀ n : Fin 8, ([t!"i", t!"ii", t!"iii", t!"iv", t!"v", t!"vi", t!"vii", t!"viii"].getD n []).all
    (CharSet.mem ⟨false, [('i', 'i'), ('v', 'v')]⟩) = true := by decide
  have h0 : ∀ n : Fin 8, [t!"i", t!"ii", t!"iii", t!"iv", t!"v", t!"vi", t!"vii", t!"viii"].getD n [] ≠ [] := by decide
  have hu := hu n; have h0 := h0 n
  simp only [MarkOk, Mark.write]
  rw [dotted_append]
  generalize [t!"i", t!"ii", t!"iii", t!"iv", t!"v", t!"vi", t!"vii", t!"viii"].getD n [] = u at hu h0
  rw [List.all_eq_true] at hu
  cases u with
  | nil => exact absurd rfl h0
  | cons c u =>
  have hc := hu c (List.mem_cons_self ..)
  have hc' : c = 'i' ∨ c = 'v' := by
    obtain ⟨r, hr, k1, k2⟩ := mem_ranges rfl hc
    simp only [List.mem_cons, List.not_mem_nil, or_false] at hr
    rcases hr with rfl | rfl
    · exact Or.inl (Char.le_antisymm k2 k1)
    · exact Or.inr (Char.le_antisymm k2 k1)
  have h1 : (Re.group t!"star" (.ch '*')).starts c = false := by rcases hc' with rfl | rfl <;> decide
  have h2 : (Re.group t!"sign" (.alt (.group t!"plus" (.rep (.ch '+') 1 (some 3)))
    (.group t!"minus" (.rep (.ch '-') 1 (some 3))))).starts c = false := by rcases hc' with rfl | rfl <;> decide
  have h3 : (Re.group t!"ordered_numeric" (.seq (.any [('1', '8')]) (.opt (.ch '.')))).starts c = false := by
    rcases hc' with rfl | rfl <;> decide
  have h4 : (Re.group t!"ordered_alpha" (.seq (.any [('a', 'h')]) (.opt (.ch '.')))).starts c = false := by
    rcases hc' with rfl | rfl <;> decide
  simp only [itemAlts, Re.alts, seq_all, alt_all]
  rw [List.cons_append]
  rw [all_nil _ c _ _ rfl (by rfl) h1, all_nil _ c _ _ rfl (by rfl) h2, all_nil _ c _ _ rfl (by rfl) h3,
    all_nil _ c _ _ rfl (by rfl) h4, List.nil_append, List.nil_append, List.nil_append, List.nil_append]
  obtain ⟨l, e⟩ := rep_head ⟨false, [('i', 'i'), ('v', 'v')]⟩ (c :: u) (dotted [] dot ++ ' ' :: t) false [] hu
    (by intro d hd; cases dot <;> simp [dotted] at hd <;> subst hd <;> decide)
    (c :: u ++ (dotted [] dot ++ ' ' :: t)).length 1 (by simp) (by simp)
  have e' : (Re.plus (.any [('i', 'i'), ('v', 'v')])).all ⟨false, c :: (u ++ (dotted [] dot ++ ' ' :: t)), []⟩ =
      ⟨false, dotted [] dot ++ ' ' :: t, []⟩ :: l := e
  rw [group_all, seq_all, e', List.flatMap_cons, List.map_append, List.flatMap_append]
  obtain ⟨g, l, h⟩ := dot_blank t!"ordered_roman" ⟨false, c :: (u ++ (dotted [] dot ++ ' ' :: t)), []⟩ dot t false
  obtain ⟨l', h'⟩ := append_head h
  exact ⟨_, l', h', rfl, rfl⟩

theorem mark_sign (minus : Bool) (n : Fin 3) (t : Text) : MarkOk (.sign minus n) t := by
  have hn : (n : Nat) + 1 ≤ 3 := by omega
  simp only [MarkOk, Mark.write, itemAlts, Re.alts, seq_all, alt_all]
  generalize (n : Nat) = k at hn
  cases minus with
  | false =>
    simp only [Bool.false_eq_true, if_false]
    obtain ⟨l, e, _⟩ := plus_head '+' (k + 1) (' ' :: t) false [] (by simp) 3 1 hn (by omega)
    have e' : (Re.rep (.ch '+') 1 (some 3)).all ⟨false, List.replicate (k + 1) '+' ++ ' ' :: t, []⟩ = ⟨false, ' ' :: t, []⟩ :: l := e
    rw [all_nil (Re.group t!"star" (.ch '*')) '+' (List.replicate k '+' ++ ' ' :: t) _ rfl (by rfl) (by rfl), List.nil_append,
      List.flatMap_append, group_all, alt_all, List.map_append, List.flatMap_append, group_all, e', List.map_cons, List.map_cons,
      List.flatMap_cons, ch_all, if_pos rfl]
    exact ⟨_, _, rfl, rfl, rfl⟩
  | true =>
    simp only [if_true]
    obtain ⟨l, e, _⟩ := plus_head '-' (k + 1) (' ' :: t) false [] (by simp) 3 1 hn (by omega)
    have e' : (Re.rep (.ch '-') 1 (some 3)).all ⟨false, List.replicate (k + 1) '-' ++ ' ' :: t, []⟩ = ⟨false, ' ' :: t, []⟩ :: l := e
    rw [all_nil (Re.group t!"star" (.ch '*')) '-' (List.replicate k '-' ++ ' ' :: t) _ rfl (by rfl) (by rfl), List.nil_append,
      List.flatMap_append, group_all, alt_all,
      all_nil (Re.group t!"plus" (.rep (.ch '+') 1 (some 3))) '-' (List.replicate k '-' ++ ' ' :: t) _ rfl (by rfl) (by rfl),
      List.nil_append, group_all, e', List.map_cons, List.map_cons,
      List.flatMap_cons, ch_all, if_pos rfl]
    exact ⟨_, _, rfl, rfl, rfl⟩

theorem mark_ok (m : Mark) (t : Text) : MarkOk m t := by
  cases m with
  | star => exact ⟨_, _, rfl, rfl, rfl⟩
  | sign minus more => exact mark_sign minus more t
  | numeric n dot => exact mark_numeric n dot t
  | alpha n dot => exact mark_alpha n dot t
  | roman n dot => exact mark_roman n dot t

theorem mark_head (m : Mark) : m.write.head?.getD ' ' ≠ ' ' := by
  cases m with
  | star => decide
  | sign b k => revert b k; decide
  | numeric k d => revert k d; decide
  | alpha k d => revert k d; decide
  | roman k d => revert k d; decide

theorem item_first (n : Nat) (m : Mark) (t : Text) :
    ∃ g, firstPattern linePatterns ⟨true, (List.replicate (n + 1) ' ' ++ m.write ++ [' ']) ++ t, []⟩ =
      some (.itemize, List.replicate (n + 1) ' ' ++ m.write ++ [' '], g, ⟨false, t, g⟩) ∧ designOf g = markDesign m ∧
    (groupOf g t!"sign").isSome = m.isSign := by
  obtain ⟨g, l, h1, h2, h3⟩ := mark_ok m t
  refine ⟨g, ?_, h2, h3⟩
  have hb : (m.write ++ ' ' :: t).head? ≠ some ' ' := by
    have := mark_head m
    cases hw : m.write with
    | nil => rw [hw] at this; exact absurd rfl this
    | cons c u => rw [hw] at this; simpa using this
  rw [firstPattern_filter linePatterns ' ' (List.replicate n ' ' ++ m.write ++ [' '] ++ t) _
    (by simp only [List.replicate_succ, List.cons_append]) nul_check, filter_blank]
  have e0 : (List.replicate (n + 1) ' ' ++ m.write ++ [' ']) ++ t = List.replicate (n + 1) ' ' ++ (m.write ++ ' ' :: t) := by simp
  obtain ⟨l', e, _⟩ := plus_head ' ' (n + 1) (m.write ++ ' ' :: t) true [] hb
    (List.replicate (n + 1) ' ' ++ (m.write ++ ' ' :: t)).length 1 (by simp) (by omega)
  have e' : (Re.plus (.ch ' ')).all ⟨true, List.replicate (n + 1) ' ' ++ (m.write ++ ' ' :: t), []⟩ =
      ⟨false, m.write ++ ' ' :: t, []⟩ :: l' := e
  have e2 : ∃ x, itemizeRe.all ⟨true, List.replicate (n + 1) ' ' ++ (m.write ++ ' ' :: t), []⟩ = ⟨false, t, g⟩ :: x := by
    rw [itemizeRe_eq, seq_all, bol_all, if_pos rfl, List.flatMap_cons, List.flatMap_nil, List.append_nil, seq_all, e']
    exact flatMap_head h1
  obtain ⟨x, e2⟩ := e2
  rw [← e0] at e2
  rw [firstPattern_head _ _ _ _ _ _ e2, between_eq (s := List.replicate (n + 1) ' ' ++ m.write ++ [' ']) rfl]

theorem itemAlts_starts (c : Char) (h : itemAlts.starts c = true) :
    c = '*' ∨ c = '+' ∨ c = '-' ∨ ('1' ≤ c ∧ c ≤ '8') ∨ ('a' ≤ c ∧ c ≤ 'i') ∨ c = 'v' := by
  obtain ⟨x, hx, h1, h2⟩ := starts_within [('*', '*'), ('+', '+'), ('-', '-'), ('1', '8'), ('a', 'i'), ('v', 'v')] _ _ h (by decide +kernel)
  simp only [List.mem_cons, List.not_mem_nil, or_false] at hx
  rcases hx with rfl | rfl | rfl | rfl | rfl | rfl
  · exact Or.inl (Char.le_antisymm h2 h1)
  · exact Or.inr (Or.inl (Char.le_antisymm h2 h1))
  · exact Or.inr (Or.inr (Or.inl (Char.le_antisymm h2 h1)))
  · exact Or.inr (Or.inr (Or.inr (Or.inl ⟨h1, h2⟩)))
  · exact Or.inr (Or.inr (Or.inr (Or.inr (Or.inl ⟨h1, h2⟩))))
  · exact Or.inr (Or.inr (Or.inr (Or.inr (Or.inr (Char.le_antisymm h2 h1)))))

theorem quote_first (c : Char) (t : Text) (hc : c ≠ ' ') (hi : itemAlts.starts c = false) :
    firstPattern linePatterns ⟨true, t!"  " ++ c :: t, []⟩ = some (.quote, t!"  ", [], ⟨false, c :: t, []⟩) := by
  rw [firstPattern_filter linePatterns ' ' (' ' :: c :: t) _ rfl nul_check, filter_blank]
  obtain ⟨l, e, he⟩ := plus_head ' ' 2 (c :: t) true [] (by simpa using hc) (t!"  " ++ c :: t).length 1 (by simp) (by omega)
  obtain ⟨l', e', _⟩ := plus_head ' ' 2 (c :: t) true [] (by simpa using hc) (t!"  " ++ c :: t).length 2 (by simp) (by omega)
  have h1 : (Re.plus (.ch ' ')).all ⟨true, t!"  " ++ c :: t, []⟩ = ⟨false, c :: t, []⟩ :: l := e
  have h2 : (Re.rep (.ch ' ') 2 none).all ⟨true, t!"  " ++ c :: t, []⟩ = ⟨false, c :: t, []⟩ :: l' := e'
  rw [firstPattern_skip]
  · rw [firstPattern_head _ _ _ _ ⟨false, c :: t, []⟩ l', between_eq (s := t!"  ") rfl]
    rw [seq_all, bol_all, if_pos rfl, List.flatMap_cons, List.flatMap_nil, List.append_nil, h2]
  · rw [itemizeRe_eq, seq_all, bol_all, if_pos rfl, List.flatMap_cons, List.flatMap_nil, List.append_nil, seq_all, h1]
    apply List.eq_nil_iff_forall_not_mem.2
    intro q hq
    obtain ⟨r, h3, h4⟩ := List.mem_flatMap.1 hq
    obtain ⟨r', h5, _⟩ := mem_seq h4
    rcases List.mem_cons.1 h3 with k | k
    · rw [k, all_nil itemAlts c t _ rfl (by rfl) hi] at h5
      cases h5
    · obtain ⟨m, k1, _, k3⟩ := he r k
      cases m with
      | zero => omega
      | succ m =>
        rw [all_nil itemAlts ' ' (List.replicate m ' ' ++ c :: t) _ k3 (by rfl) (by decide +kernel)] at h5
        cases h5

/-! ### Lines of pieces -/

/-- The tokens of a piece. -/
def pieceToks : Piece → List LineToken
  | .plain t => plainToks t
  | .styled s t => (stylePat s, s.before, []) :: plainToks t ++ [(stylePat' s, s.after, [])]

def lineToks (l : Line) : List LineToken := l.flatMap pieceToks

theorem plain_quiet {t : Text} (h : t.all plain = true) : Quiet t := by
  intro c hc k
  refine plain_not (List.all_eq_true.1 h c hc) ⟨('/', ':'), by simp [marks], k.1, Char.le_trans k.2 (by decide)⟩

theorem quiet_append {a b : Text} (ha : Quiet a) (hb : Quiet b) : Quiet (a ++ b) := by
  intro c hc
  rcases List.mem_append.1 hc with h | h
  · exact ha c h
  · exact hb c h

theorem quiet_of (t : Text) (h : (t.all fun c => !('/' ≤ c && c ≤ '9')) = true) : Quiet t := by
  intro c hc k
  have := List.all_eq_true.1 h c hc
  simp [k.1, k.2] at this

theorem before_quiet (s : Style) : Quiet s.before := by cases s <;> exact quiet_of _ (by decide)
theorem after_quiet (s : Style) : Quiet s.after := by cases s <;> exact quiet_of _ (by decide)

theorem fit_cons {p : Piece} {l : Line} (h : Fit (p :: l)) : p.text ≠ [] ∧ p.text.all plain = true := by
  cases l with
  | nil => exact h
  | cons q l => exact h.1

theorem fit_tail {p : Piece} {l : Line} (h : Fit (p :: l)) : Fit l := by
  cases l with
  | nil => trivial
  | cons q l => exact h.2.2

theorem write_quiet {l : Line} (h : Fit l) : Quiet (write l) := by
  induction l with
  | nil => intro c hc; cases hc
  | cons p l ih =>
    have hp := plain_quiet (fit_cons h).2
    refine quiet_append ?_ (ih (fit_tail h))
    cases p with
    | plain t => exact hp
    | styled s t => exact quiet_append (quiet_append (before_quiet s) hp) (after_quiet s)

/-- The marks of stretches. -/
def markChar (c : Char) : Prop := c = '\'' ∨ c = '_' ∨ c = '~' ∨ c = ',' ∨ c = '^' ∨ c = '`' ∨ c = '{' ∨ c = '}'

theorem plain_markChar {c : Char} (h : Document.plain c = true) : ¬ markChar c := by
  rintro (rfl | rfl | rfl | rfl | rfl | rfl | rfl | rfl) <;> revert h <;> decide

theorem before_head (s : Style) : ∃ c, s.before.head? = some c ∧ markChar c := by
  cases s <;> exact ⟨_, rfl, by simp [markChar]⟩

theorem after_head (s : Style) : ∃ c, s.after.head? = some c ∧ markChar c := by
  cases s <;> exact ⟨_, rfl, by simp [markChar]⟩

theorem before_ne (s : Style) : s.before ≠ [] := by cases s <;> simp [Style.before]
theorem after_ne (s : Style) : s.after ≠ [] := by cases s <;> simp [Style.after, Style.before]

/-- What comes first is not a mark. -/
def Calm (t : Text) : Prop := ∀ c, t.head? = some c → ¬ markChar c

theorem calm_plain {u t : Text} (h0 : u ≠ []) (h : u.all plain = true) : Calm (u ++ t) := by
  cases u with
  | nil => exact absurd rfl h0
  | cons c u =>
    intro d hd
    have : c = d := by simpa using hd
    subst this
    exact plain_markChar (List.all_eq_true.1 h c (List.mem_cons_self ..))

theorem calm_ne {t : Text} {o : Option Char} (h : Calm t) (ho : ∃ c, o = some c ∧ markChar c) : t.head? ≠ o := by
  obtain ⟨c, e, hc⟩ := ho
  intro k
  exact h c (k.trans e) hc

theorem toks_line {start : Bool} {l : Line} {t : Text} {xs : List LineToken} (hf : Fit l)
    (hs : start = true → (write l).head? ≠ some ' ') (h0 : l = [] → start = false) (hq : Quiet t) (hh : Calm t)
    (ht : Toks false t xs) : Toks start (write l ++ t) (lineToks l ++ xs) := by
  induction l generalizing start with
  | nil => rw [h0 rfl]; exact ht
  | cons p l ih =>
    obtain ⟨hp0, hp⟩ := fit_cons hf
    have ih := ih (start := false) (fit_tail hf) (by simp) (by simp)
    have hq' : Quiet (write l ++ t) := quiet_append (write_quiet (fit_tail hf)) hq
    cases p with
    | plain u =>
      simp only [Piece.text] at hp hp0
      have e1 : write (.plain u :: l) ++ t = u ++ (write l ++ t) := by simp [write, Piece.write]
      have e2 : lineToks (.plain u :: l) ++ xs = plainToks u ++ (lineToks l ++ xs) := by simp [lineToks, pieceToks]
      rw [e1, e2]
      refine toks_plain hp ?_ (fun h => absurd h hp0) (quiet_append (plain_quiet hp) hq') ih
      intro h k
      refine hs h ?_
      cases u with
      | nil => exact absurd rfl hp0
      | cons c u => simpa [write, Piece.write] using k
    | styled s u =>
      simp only [Piece.text] at hp hp0
      have e1 : write (.styled s u :: l) ++ t = s.before ++ (u ++ (s.after ++ (write l ++ t))) := by simp [write, Piece.write]
      have e2 : lineToks (.styled s u :: l) ++ xs = (stylePat s, s.before, []) :: (plainToks u ++ ((stylePat' s, s.after, []) ::
        (lineToks l ++ xs))) := by simp [lineToks, pieceToks]
      rw [e1, e2]
      have hcalm : Calm (write l ++ t) := by
        cases l with
        | nil => exact hh
        | cons q l =>
          obtain ⟨k0, k⟩ := fit_cons (fit_tail hf)
          cases q with
          | plain v =>
            have : write (.plain v :: l) ++ t = v ++ (write l ++ t) := by simp [write, Piece.write]
            rw [this]
            exact calm_plain k0 k
          | styled s' v => simp [Fit, Piece.isPlain] at hf
      refine toks_cons (before_ne s) (style_first s start _ (calm_ne (calm_plain hp0 hp) (before_head s)) ?_) rfl ?_
      · intro _
        have h1 : u.length ≠ 0 := fun h => hp0 (List.length_eq_zero_iff.1 h)
        have h2 : s.after.length ≠ 0 := fun h => after_ne s (List.length_eq_zero_iff.1 h)
        refine ⟨fun h => ?_, fun h => ?_⟩
        · have := congrArg List.length h; simp only [List.length_append, List.length_nil, List.length_cons] at this; omega
        · have := congrArg List.length h; simp only [List.length_append, List.length_nil, List.length_cons] at this; omega
      · refine toks_plain hp (by simp) (fun h => absurd h hp0) (quiet_append (plain_quiet hp) (quiet_append (after_quiet s) hq')) ?_
        exact toks_cons (after_ne s) (style_last s _ (calm_ne hcalm (after_head s))) rfl ih

end Bglib.Doc
