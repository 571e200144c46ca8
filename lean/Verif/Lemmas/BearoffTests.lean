import Verif.Spec.BearoffTests
import Verif.Lemmas.TestWriter
import Verif.Lemmas.Text
import Verif.Lemmas.Split
import Verif.Lemmas.DocCode
/-
Tables of numbers of bearoff positions and their tests.
-/
namespace Bglib.Spec.BearoffTests
open Bglib Bglib.BearoffTests

/-! ### Signs of numbers -/

theorem decimal_not {c : Char} (n : Nat) (h : digitVal c = none) : c ∉ decimal n := by
  intro hc
  obtain ⟨d, hd, rfl⟩ := decimal_digits hc
  have : ∀ d < 10, digitVal (digitChar d) ≠ none := by decide
  exact this d hd h

theorem commas_not {c : Char} (xs : List Nat) (h : digitVal c = none) (hc : c ≠ ',') : c ∉ commas xs := by
  induction xs with
  | nil => simp [commas]
  | cons x xs ih =>
    cases xs with
    | nil => exact decimal_not x h
    | cons y ys =>
      simp only [commas, List.mem_append, List.mem_cons, not_or]
      exact ⟨decimal_not x h, hc, ih⟩

theorem commas_ne {xs : List Nat} (h : xs ≠ []) : commas xs ≠ [] := by
  cases xs with
  | nil => exact absurd rfl h
  | cons x xs =>
    cases xs with
    | nil => exact decimal_ne_nil x
    | cons y ys => simp [commas]

theorem split_commas {xs : List Nat} (h : xs ≠ []) : splitChar ',' (commas xs) = xs.map decimal := by
  induction xs with
  | nil => exact absurd rfl h
  | cons x xs ih =>
    cases xs with
    | nil => exact splitChar_none _ _ (decimal_not x (by decide))
    | cons y ys =>
      rw [commas, splitChar_append _ _ _ (decimal_not x (by decide)), ih (by simp)]
      rfl

theorem ints_decimal (xs : List Nat) : ints (xs.map decimal) = .ok (xs.map Int.ofNat) := by
  induction xs with
  | nil => rfl
  | cons x xs ih =>
    simp only [List.map_cons, ints, pyInt_decimal, ih]
    rfl

theorem s2t_commas {xs : List Nat} (h : xs ≠ []) : s2t (commas xs) = .ok ((sixPoints xs).map Int.ofNat) := by
  simp only [s2t, split_commas h, ints_decimal, bind, Except.bind, pure, Except.pure, sixPoints, List.map_append, List.map_replicate,
    List.length_map]
  rfl

/-! ### Lines of tables -/

theorem space_digit {c : Char} (h : isSpace c = true) : digitVal c = none ∧ c ≠ ',' := by
  simp only [isSpace, Bool.or_eq_true, decide_eq_true_eq] at h
  rcases h with ((((h | h) | h) | h) | h) | h <;> subst h <;> decide

theorem splitBlanks_word (w : Text) (acc : Text) (r : Text) (h : ∀ c ∈ w, isSpace c = false) :
    splitBlanks acc (w ++ r) = splitBlanks (w.reverse ++ acc) r := by
  induction w generalizing acc with
  | nil => rfl
  | cons c w ih =>
    rw [List.cons_append, splitBlanks, h c (by simp), if_neg (by simp), ih _ fun x hx => h x (by simp [hx])]
    simp

theorem splitBlanks_first (w r : Text) (h : ∀ c ∈ w, isSpace c = false) (hne : w ≠ []) :
    splitBlanks [] (w ++ ' ' :: r) = w :: splitBlanks [] r := by
  rw [splitBlanks_word w [] _ h, List.append_nil, splitBlanks, if_pos (by decide), if_neg (by simpa using hne), List.reverse_reverse]

theorem splitBlanks_last (w : Text) (h : ∀ c ∈ w, isSpace c = false) (hne : w ≠ []) : splitBlanks [] w = [w] := by
  have := splitBlanks_word w [] [] h
  rw [List.append_nil] at this
  rw [this, splitBlanks, List.append_nil, if_neg (by simpa using hne), List.reverse_reverse]

theorem decimal_blanks (n : Nat) : ∀ c ∈ decimal n, isSpace c = false := by
  intro c hc
  cases h : isSpace c with
  | false => rfl
  | true => exact absurd hc (decimal_not n (space_digit h).1)

theorem commas_blanks (xs : List Nat) : ∀ c ∈ commas xs, isSpace c = false := by
  intro c hc
  cases h : isSpace c with
  | false => rfl
  | true => exact absurd hc (commas_not xs (space_digit h).1 (space_digit h).2)

theorem split_line (r : Row) (h1 : r.2.1 ≠ []) (h2 : r.2.2 ≠ []) : splitBlanks [] (line r) = [decimal r.1, commas r.2.1, commas r.2.2] := by
  rw [line, splitBlanks_first _ _ (decimal_blanks _) (decimal_ne_nil _), splitBlanks_first _ _ (commas_blanks _) (commas_ne h1),
    splitBlanks_last _ (commas_blanks _) (commas_ne h2)]

theorem cases_lines (rs : List Row) (h : ∀ r ∈ rs, r.2.1 ≠ [] ∧ r.2.2 ≠ []) : casesOf (rs.map line) = .ok (rs.map fun r => toCase (complete r)) := by
  induction rs with
  | nil => rfl
  | cons r rs ih =>
    obtain ⟨h1, h2⟩ := h r (by simp)
    rw [List.map_cons, casesOf, split_line r h1 h2]
    simp only [pyInt_decimal, s2t_commas h1, s2t_commas h2, bind, Except.bind, ih fun x hx => h x (by simp [hx]), pure, Except.pure]
    rfl

theorem read_table (rs : List Row) (h : ∀ r ∈ rs, r.2.1 ≠ [] ∧ r.2.2 ≠ []) : dat2case (table rs) = .ok (rs.map fun r => toCase (complete r)) := by
  have e : table rs = (rs.map line).flatMap (· ++ ['\n']) := by rw [table, List.flatMap_map]
  rw [dat2case, e, Doc.splitLines_lines]
  · exact cases_lines rs h
  · intro t ht
    obtain ⟨r, _, rfl⟩ := List.mem_map.1 ht
    have key : ∀ c : Char, digitVal c = none → c ≠ ',' → c ≠ ' ' → c ∉ line r := by
      intro c h1 h2 h3
      simp only [line, List.mem_append, List.mem_cons, not_or]
      exact ⟨decimal_not _ h1, h3, commas_not _ h1 h2, h3, commas_not _ h1 h2⟩
    exact ⟨key _ (by decide) (by decide) (by decide), key _ (by decide) (by decide) (by decide)⟩

/-! ### Gaps of any width -/

theorem splitBlanks_skip (g r : Text) (h : ∀ c ∈ g, isSpace c = true) : splitBlanks [] (g ++ r) = splitBlanks [] r := by
  induction g with
  | nil => rfl
  | cons c g ih =>
    rw [List.cons_append, splitBlanks, if_pos (h c (by simp)), if_pos rfl, ih fun x hx => h x (by simp [hx])]

theorem splitBlanks_gap (w g r : Text) (h : ∀ c ∈ w, isSpace c = false) (hne : w ≠ []) (hg : ∀ c ∈ g, isSpace c = true)
    (hgn : g ≠ []) : splitBlanks [] (w ++ (g ++ r)) = w :: splitBlanks [] r := by
  cases g with
  | nil => exact absurd rfl hgn
  | cons c g =>
    rw [splitBlanks_word w [] _ h, List.append_nil, List.cons_append, splitBlanks, if_pos (hg c (by simp)),
      if_neg (by simpa using hne), List.reverse_reverse, splitBlanks_skip g r fun x hx => hg x (by simp [hx])]

theorem splitBlanks_end (w g : Text) (h : ∀ c ∈ w, isSpace c = false) (hne : w ≠ []) (hg : ∀ c ∈ g, isSpace c = true) :
    splitBlanks [] (w ++ g) = [w] := by
  by_cases hgn : g = []
  · subst hgn; rw [List.append_nil]; exact splitBlanks_last w h hne
  · have := splitBlanks_gap w g [] h hne hg hgn
    rw [List.append_nil] at this
    rw [this]; rfl

theorem gap_space {c : Char} (h : c = ' ' ∨ c = '\t') : isSpace c = true := by
  rcases h with rfl | rfl <;> decide

theorem split_spaced (r : Row × Gaps) (h1 : r.1.2.1 ≠ []) (h2 : r.1.2.2 ≠ []) (hg : r.2.Fit) :
    splitBlanks [] (spacedLine r) = [decimal r.1.1, commas r.1.2.1, commas r.1.2.2] := by
  obtain ⟨g0, g1, g2⟩ := hg
  simp only [List.mem_append] at g0
  simp only [spacedLine, List.append_assoc]
  rw [splitBlanks_skip _ _ fun c hc => gap_space (g0 c (by simp [hc])),
    splitBlanks_gap _ _ _ (decimal_blanks _) (decimal_ne_nil _) (fun c hc => gap_space (g0 c (by simp [hc]))) g1,
    splitBlanks_gap _ _ _ (commas_blanks _) (commas_ne h1) (fun c hc => gap_space (g0 c (by simp [hc]))) g2,
    splitBlanks_end _ _ (commas_blanks _) (commas_ne h2) fun c hc => gap_space (g0 c (by simp [hc]))]

theorem cases_spaced (rs : List (Row × Gaps)) (h : ∀ r ∈ rs, r.1.2.1 ≠ [] ∧ r.1.2.2 ≠ [] ∧ r.2.Fit) :
    casesOf (rs.map spacedLine) = .ok (rs.map fun r => toCase (complete r.1)) := by
  induction rs with
  | nil => rfl
  | cons r rs ih =>
    obtain ⟨h1, h2, h3⟩ := h r (by simp)
    rw [List.map_cons, casesOf, split_spaced r h1 h2 h3]
    simp only [pyInt_decimal, s2t_commas h1, s2t_commas h2, bind, Except.bind, ih fun x hx => h x (by simp [hx]), pure, Except.pure]
    rfl

theorem read_spaced (rs : List (Row × Gaps)) (h : ∀ r ∈ rs, r.1.2.1 ≠ [] ∧ r.1.2.2 ≠ [] ∧ r.2.Fit) :
    dat2case (spacedTable rs) = .ok (rs.map fun r => toCase (complete r.1)) := by
  have e : spacedTable rs = (rs.map spacedLine).flatMap (· ++ ['\n']) := by rw [spacedTable, List.flatMap_map]
  rw [dat2case, e, Doc.splitLines_lines]
  · exact cases_spaced rs h
  · intro t ht
    obtain ⟨r, hr, rfl⟩ := List.mem_map.1 ht
    obtain ⟨_, _, g0, _, _⟩ := h r hr
    simp only [List.mem_append] at g0
    have key : ∀ c : Char, digitVal c = none → c ≠ ',' → c ≠ ' ' → c ≠ '\t' → c ∉ spacedLine r := by
      intro c h1 h2 h3 h4
      have ng : ∀ g : Text, (∀ c ∈ g, c = ' ' ∨ c = '\t') → c ∉ g := fun g hg hc =>
        (hg c hc).elim h3 h4
      simp only [spacedLine, List.mem_append, not_or]
      exact ⟨⟨⟨⟨⟨⟨ng _ fun c hc => g0 c (by simp [hc]), decimal_not _ h1⟩, ng _ fun c hc => g0 c (by simp [hc])⟩, commas_not _ h1 h2⟩,
        ng _ fun c hc => g0 c (by simp [hc])⟩, commas_not _ h1 h2⟩, ng _ fun c hc => g0 c (by simp [hc])⟩
    exact ⟨key _ (by decide) (by decide) (by decide) (by decide), key _ (by decide) (by decide) (by decide) (by decide)⟩

/-! ### The check before the file is written -/

theorem lookup_cons (d : Case) (cs : List Case) (n : Int) :
    lookup (d :: cs) n = (lookup cs n).or (if d.1 = n then some d.2 else none) := by
  unfold lookup
  rw [List.reverse_cons, List.find?_append]
  cases cs.reverse.find? fun c => decide (c.1 = n) with
  | some x => rfl
  | none =>
    by_cases h : d.1 = n <;> simp [h]

theorem lookup_none (cs : List Case) (n : Int) : lookup cs n = none ↔ ∀ d ∈ cs, d.1 ≠ n := by
  induction cs with
  | nil => simp [lookup]
  | cons d cs ih =>
    rw [lookup_cons, Option.or_eq_none_iff, ih]
    by_cases h : d.1 = n <;> simp [h]

theorem lookup_last (cs : List Case) (c : Case) : lookup cs c.1 = some c.2 ↔ LastOf cs c := by
  induction cs with
  | nil => simp [lookup, LastOf]
  | cons d cs ih =>
    rw [lookup_cons]
    constructor
    · intro h
      cases hl : lookup cs c.1 with
      | some x =>
        rw [hl] at h
        have : x = c.2 := by simpa using h
        subst this
        obtain ⟨b, a, rfl, hd⟩ := ih.1 hl
        exact ⟨d :: b, a, rfl, hd⟩
      | none =>
        rw [hl] at h
        by_cases e : d.1 = c.1
        · rw [if_pos e] at h
          have e2 : d.2 = c.2 := by simpa using h
          have : d = c := Prod.ext e e2
          subst this
          exact ⟨[], cs, rfl, (lookup_none cs d.1).1 hl⟩
        · rw [if_neg e] at h; simp at h
    · rintro ⟨b, a, hcs, hd⟩
      cases b with
      | nil =>
        rw [List.nil_append] at hcs
        obtain ⟨rfl, rfl⟩ := List.cons.inj hcs
        rw [(lookup_none cs d.1).2 hd]; simp
      | cons x b =>
        rw [List.cons_append] at hcs
        obtain ⟨rfl, rfl⟩ := List.cons.inj hcs
        rw [ih.2 ⟨b, a, rfl, hd⟩]; rfl

theorem check_iff (cs ts : List Case) : check cs ts = .ok () ↔ ∀ c ∈ ts, LastOf cs c := by
  induction ts with
  | nil => simp [check]
  | cons c ts ih =>
    obtain ⟨n, t⟩ := c
    rw [check, List.forall_mem_cons, ← ih, ← lookup_last]
    cases hl : lookup cs n with
    | none => simp
    | some u =>
      by_cases e : u = t
      · subst e; simp
      · simp [e]

theorem ints_refused (ts : List Text) : ints ts = .error .valueError ∨ ∃ ns, ints ts = .ok ns := by
  induction ts with
  | nil => exact Or.inr ⟨_, rfl⟩
  | cons t ts ih =>
    rw [ints]
    split
    · exact Or.inl rfl
    · rcases ih with h | ⟨ns, h⟩ <;> rw [h]
      · exact Or.inl rfl
      · exact Or.inr ⟨_, rfl⟩

theorem s2t_refused (t : Text) : s2t t = .error .valueError ∨ ∃ ns, s2t t = .ok ns := by
  rw [s2t]
  rcases ints_refused (splitChar ',' t) with h | ⟨ns, h⟩ <;> rw [h]
  · exact Or.inl rfl
  · exact Or.inr ⟨_, rfl⟩

theorem cases_refused (ls : List Text) : (casesOf ls = .error .valueError ∨ ∃ cs, casesOf ls = .ok cs ∧ cs.length = ls.length) ∧
    ((∃ l ∈ ls, (splitBlanks [] l).length ≠ 3) → casesOf ls = .error .valueError) := by
  induction ls with
  | nil => exact ⟨Or.inr ⟨_, rfl, rfl⟩, by rintro ⟨l, hl, _⟩; cases hl⟩
  | cons l ls ih =>
    obtain ⟨ih1, ih2⟩ := ih
    rw [casesOf]
    split
    · next n us them e =>
      split
      · exact ⟨Or.inl rfl, fun _ => rfl⟩
      · rcases s2t_refused us with h | ⟨a, h⟩ <;> rw [h]
        · exact ⟨Or.inl rfl, fun _ => rfl⟩
        · rcases s2t_refused them with h | ⟨b, h⟩ <;> rw [h]
          · exact ⟨Or.inl rfl, fun _ => rfl⟩
          · constructor
            · rcases ih1 with h | ⟨cs, h, hl⟩ <;> rw [h]
              · exact Or.inl rfl
              · exact Or.inr ⟨_, rfl, by simp [hl]⟩
            · rintro ⟨k, hk, hne⟩
              rcases List.mem_cons.1 hk with rfl | hk
              · rw [e] at hne; exact absurd rfl hne
              · rw [ih2 ⟨k, hk, hne⟩]
                rfl
    · exact ⟨Or.inl rfl, fun _ => rfl⟩

/-! ### Numbers in texts -/

theorem numbers_decimalAux (f n : Nat) (h : n < f) (r : Text) : numbersFrom none (decimalAux f n ++ r) = numbersFrom (some n) r := by
  have key : ∀ d < 10, digitVal (digitChar d) = some d := by decide
  induction f generalizing n r with
  | zero => omega
  | succ f ih =>
    rw [decimalAux]
    split
    · next hn =>
      rw [List.singleton_append, numbersFrom, key n hn]
      simp
    · next hn =>
      rw [List.append_assoc, ih (n / 10) (by omega), List.singleton_append, numbersFrom, key (n % 10) (by omega)]
      simp only [Option.getD_some]
      congr 2
      omega

theorem numbers_decimal (n : Nat) (r : Text) : numbersFrom none (decimal n ++ r) = numbersFrom (some n) r :=
  numbers_decimalAux (n + 1) n (by omega) r

theorem numbers_stop (n : Option Nat) {c : Char} (h : digitVal c = none) (r : Text) : numbersFrom n (c :: r) = n.toList ++ numbersFrom none r := by
  rw [numbersFrom, h]

theorem numbers_only (n : Nat) : numbersIn (decimal n) = [n] := by
  have := numbers_decimal n []
  rw [List.append_nil] at this
  rw [numbersIn, this]
  rfl

theorem numbers_more (xs : List Nat) (n : Option Nat) (r : Text) (hr : ∀ n, numbersFrom n r = n.toList ++ numbersFrom none r) :
    numbersFrom n ((xs.map Int.ofNat).flatMap (fun y => t!", " ++ pyStr y) ++ r) = n.toList ++ xs ++ numbersFrom none r := by
  induction xs generalizing n with
  | nil => rw [List.map_nil, List.flatMap_nil, List.nil_append, hr, List.append_nil]
  | cons x xs ih =>
    rw [List.map_cons, List.flatMap_cons]
    have e : pyStr (Int.ofNat x) = decimal x := pyStr_nat x
    rw [e]
    show numbersFrom n (',' :: ' ' :: (decimal x ++ _) ++ r) = _
    rw [List.cons_append, numbers_stop n (by decide), List.cons_append, numbers_stop none (by decide), List.append_assoc, numbers_decimal, ih]
    simp

/-- The numbers of a side, up to the bracket. -/
def opened : List Nat → Text
  | [] => t!"("
  | [x] => '(' :: decimal x ++ t!","
  | x :: xs => '(' :: decimal x ++ ((xs.map Int.ofNat).flatMap fun y => t!", " ++ pyStr y)

theorem tuple_opened (xs : List Nat) : tupleText (xs.map Int.ofNat) = opened xs ++ t!")" := by
  match xs with
  | [] => rfl
  | [x] => simp [tupleText, opened, pyStr_nat]
  | x :: y :: ys => simp [tupleText, opened, pyStr_nat]

theorem opened_numbers (xs : List Nat) (r : Text) (hr : ∀ n, numbersFrom n r = n.toList ++ numbersFrom none r) :
    numbersFrom none (opened xs ++ r) = xs ++ numbersFrom none r := by
  match xs with
  | [] =>
    show numbersFrom none ('(' :: r) = _
    rw [numbers_stop none (by decide)]; rfl
  | [x] =>
    show numbersFrom none ('(' :: decimal x ++ t!"," ++ r) = _
    rw [List.append_assoc, List.cons_append, numbers_stop none (by decide), numbers_decimal]
    show _ ++ numbersFrom (some x) (',' :: r) = _
    rw [numbers_stop _ (by decide)]
    rfl
  | x :: y :: ys =>
    rw [opened, List.append_assoc, List.cons_append, numbers_stop none (by decide), numbers_decimal, numbers_more _ _ _ hr]
    · rfl
    · simp

theorem opened_not (c : Char) (xs : List Nat) (h : digitVal c = none) (h1 : c ≠ '(') (h2 : c ≠ ',') (h3 : c ≠ ' ') : c ∉ opened xs := by
  have key : ∀ ys : List Nat, c ∉ ((ys.map Int.ofNat).flatMap fun y => t!", " ++ pyStr y) := by
    intro ys hc
    obtain ⟨y, hy, hc⟩ := List.mem_flatMap.1 hc
    obtain ⟨k, _, rfl⟩ := List.mem_map.1 hy
    have e : pyStr (Int.ofNat k) = decimal k := pyStr_nat k
    rw [e] at hc
    simp only [List.mem_append, List.mem_cons, List.not_mem_nil, or_false] at hc
    rcases hc with (hc | hc) | hc
    · exact h2 hc
    · exact h3 hc
    · exact decimal_not k h hc
  match xs with
  | [] => simpa [opened] using h1
  | [x] =>
    simp only [opened, List.mem_append, List.mem_cons, List.not_mem_nil, or_false, not_or]
    exact ⟨⟨h1, decimal_not x h⟩, h2⟩
  | x :: y :: ys =>
    rw [opened]
    · simp only [List.mem_append, List.mem_cons, not_or]
      exact ⟨⟨h1, decimal_not x h⟩, key _⟩
    · simp

/-! ### Files -/

theorem joined_decimal (xs : List Nat) : joined (xs.map Int.ofNat) = xs.flatMap decimal := by
  rw [joined, List.flatMap_map]
  congr 1

/-- The name of a test. -/
theorem name_decimal (r : Row) : testName (toCase r) = t!"t2k_" ++ r.2.1.flatMap decimal ++ r.2.2.flatMap decimal ++ t!"_test" := by
  rw [testName, toCase, joined_decimal, joined_decimal]

theorem name_not (c : Char) (r : Row) (h : digitVal c = none) (h1 : c ∉ t!"t2k_test") : c ∉ testName (toCase r) := by
  have key : ∀ xs : List Nat, c ∉ xs.flatMap decimal := by
    intro xs hc
    obtain ⟨x, _, hc⟩ := List.mem_flatMap.1 hc
    exact decimal_not x h hc
  rw [name_decimal]
  simp only [List.mem_append, not_or]
  simp only [List.mem_cons, List.not_mem_nil, or_false, not_or] at h1 ⊢
  obtain ⟨a1, a2, a3, a4, a5, a6, a7, a8⟩ := h1
  exact ⟨⟨⟨⟨a1, a2, a3, a4⟩, key _⟩, key _⟩, a4, a5, a6, a7, a8⟩

/-- The five lines of a test. -/
def fiveLines (r : Row) : List Text :=
  [t!"  def " ++ (testName (toCase r) ++ t!"(self):"), t!"    self.assertEqual(t2k(",
    t!"         (" ++ ((opened r.2.1 ++ t!")" ++ t!", " ++ (opened r.2.2 ++ t!")")) ++ t!") ,"), t!"        ),",
    t!"    " ++ (decimal r.1 ++ t!" )")]

theorem five_lines (r : Row) (rest : Text) : splitChar '\n' (writetest (toCase r) ++ rest) = fiveLines r ++ splitChar '\n' rest := by
  have hn : pyStr (toCase r).1 = decimal r.1 := pyStr_nat r.1
  have e : writetest (toCase r) ++ rest = (t!"  def " ++ (testName (toCase r) ++ t!"(self):")) ++ '\n' :: (t!"    self.assertEqual(t2k(" ++ '\n' ::
      ((t!"         (" ++ ((opened r.2.1 ++ t!")" ++ t!", " ++ (opened r.2.2 ++ t!")")) ++ t!") ,")) ++ '\n' :: (t!"        )," ++ '\n' ::
      ((t!"    " ++ (decimal r.1 ++ t!" )")) ++ '\n' :: rest)))) := by
    simp only [writetest, pairText, hn]
    simp only [toCase, tuple_opened]
    simp
  have hname := name_not '\n' r (by decide) (by decide)
  have hus := opened_not '\n' r.2.1 (by decide) (by decide) (by decide) (by decide)
  have hth := opened_not '\n' r.2.2 (by decide) (by decide) (by decide) (by decide)
  have hnum := decimal_not (c := '\n') r.1 (by decide)
  have l1 : '\n' ∉ t!"  def " ++ (testName (toCase r) ++ t!"(self):") := by
    simp only [List.mem_append, not_or]
    exact ⟨by decide, hname, by decide⟩
  have l3 : '\n' ∉ t!"         (" ++ ((opened r.2.1 ++ t!")" ++ t!", " ++ (opened r.2.2 ++ t!")")) ++ t!") ,") := by
    simp only [List.mem_append, not_or]
    exact ⟨by decide, ⟨⟨⟨hus, by decide⟩, by decide⟩, hth, by decide⟩, by decide⟩
  have l5 : '\n' ∉ t!"    " ++ (decimal r.1 ++ t!" )") := by
    simp only [List.mem_append, not_or]
    exact ⟨by decide, hnum, by decide⟩
  rw [e, splitChar_append _ _ _ l1, splitChar_append _ _ _ (by decide), splitChar_append _ _ _ l3, splitChar_append _ _ _ (by decide),
    splitChar_append _ _ _ l5]
  rfl

theorem between_prefix (first last l : Text) (h : first.isPrefixOf l = false) : Spec.between first last l = none := by
  unfold Spec.between
  rw [h]
  rfl

theorem collect_five (r : Row) (name : Text) (us them : List Nat) (ls : List Text) :
    collect name us them (fiveLines r ++ ls) = (testName (toCase r), r) :: collect (testName (toCase r)) r.2.1 r.2.2 ls := by
  have stop : ∀ n, numbersFrom n [] = n.toList ++ numbersFrom none [] := by intro n; cases n <;> rfl
  have stop2 : ∀ n, numbersFrom n t!")" = n.toList ++ numbersFrom none t!")" := by intro n; cases n <;> rfl
  have hus := opened_not ')' r.2.1 (by decide) (by decide) (by decide) (by decide)
  have n1 : numbersIn ((opened r.2.1 ++ t!")" ++ t!", " ++ (opened r.2.2 ++ t!")")).takeWhile (· ≠ ')')) = r.2.1 := by
    rw [List.append_assoc, List.append_assoc, List.takeWhile_append_of_pos (by intro c hc; simp; rintro rfl; exact hus hc)]
    have := opened_numbers r.2.1 [] stop
    rw [numbersIn]
    simpa [numbersFrom] using this
  have n2 : numbersIn ((opened r.2.1 ++ t!")" ++ t!", " ++ (opened r.2.2 ++ t!")")).dropWhile (· ≠ ')')) = r.2.2 := by
    rw [List.append_assoc, List.append_assoc, List.dropWhile_append_of_pos (by intro c hc; simp; rintro rfl; exact hus hc)]
    show numbersFrom none (')' :: ',' :: ' ' :: (opened r.2.2 ++ t!")")) = _
    rw [numbers_stop _ (by decide), numbers_stop _ (by decide), numbers_stop _ (by decide), opened_numbers _ _ stop2]
    simp [numbersFrom, digitVal]
  show collect name us them ((t!"  def " ++ (testName (toCase r) ++ t!"(self):")) :: t!"    self.assertEqual(t2k(" ::
    (t!"         (" ++ ((opened r.2.1 ++ t!")" ++ t!", " ++ (opened r.2.2 ++ t!")")) ++ t!") ,")) :: t!"        )," ::
    (t!"    " ++ (decimal r.1 ++ t!" )")) :: ls) = _
  rw [collect, Bglib.between_some]
  simp only
  rw [collect, between_prefix t!"  def " _ _ (by decide), between_prefix t!"         (" _ _ (by decide)]
  simp only
  rw [show Spec.between t!"    " t!" )" t!"    self.assertEqual(t2k(" = none by decide]
  simp only
  rw [collect, between_prefix t!"  def " _ _ rfl, Bglib.between_some]
  simp only [n1, n2]
  rw [collect, between_prefix t!"  def " _ _ (by decide), between_prefix t!"         (" _ _ (by decide)]
  simp only
  rw [show Spec.between t!"    " t!" )" t!"        )," = none by decide]
  simp only
  rw [collect, between_prefix t!"  def " _ _ rfl, between_prefix t!"         (" t!") ," _ ?_, Bglib.between_some]
  · simp only [numbers_only]
    rfl
  · cases hd : decimal r.1 with
    | nil => exact absurd hd (decimal_ne_nil _)
    | cons c u =>
      have : c ≠ ' ' := by
        rintro rfl
        exact decimal_not (c := ' ') r.1 (by decide) (by rw [hd]; simp)
      have e : (' ' == c) = false := by simpa using Ne.symm this
      show (' ' :: ' ' :: ' ' :: ' ' :: ' ' :: _).isPrefixOf (' ' :: ' ' :: ' ' :: ' ' :: c :: (u ++ t!" )")) = false
      simp [List.isPrefixOf, e]

theorem collect_tests (rs : List Row) (name : Text) (us them : List Nat) :
    collect name us them (splitChar '\n' ((rs.map toCase).flatMap writetest)) = rs.map fun r => (testName (toCase r), r) := by
  induction rs generalizing name us them with
  | nil => rfl
  | cons r rs ih => rw [List.map_cons, List.flatMap_cons, five_lines, collect_five, ih, List.map_cons]

theorem read_output (rs : List Row) : asked (output (rs.map toCase)) = rs.map fun r => (testName (toCase r), r) := by
  rw [asked, output, heading]
  simp only [List.append_assoc]
  have key : ∀ (f rest : Text), '\n' ∉ f → collect [] [] [] [f] = [] →
      (∀ ls, collect [] [] [] (f :: ls) = collect [] [] [] ls) → collect [] [] [] (splitChar '\n' (f ++ '\n' :: rest)) = collect [] [] [] (splitChar '\n' rest) := by
    intro f rest h1 _ h2
    rw [splitChar_append _ _ _ h1, h2]
  have skip : ∀ (f : Text), Spec.between t!"  def " t!"(self):" f = none → Spec.between t!"         (" t!") ," f = none →
      Spec.between t!"    " t!" )" f = none → ∀ ls, collect [] [] [] (f :: ls) = collect [] [] [] ls := by
    intro f h1 h2 h3 ls
    rw [collect, h1, h2, h3]
  have go : ∀ (f rest : Text), ('\n' ∉ f ∧ Spec.between t!"  def " t!"(self):" f = none ∧ Spec.between t!"         (" t!") ," f = none ∧
      Spec.between t!"    " t!" )" f = none) → collect [] [] [] (splitChar '\n' (f ++ '\n' :: rest)) = collect [] [] [] (splitChar '\n' rest) := by
    intro f rest ⟨h1, h2, h3, h4⟩
    rw [splitChar_append _ _ _ h1, skip f h2 h3 h4]
  rw [← collect_tests rs [] [] []]
  generalize (rs.map toCase).flatMap writetest = rest
  refine (go t!"#!/usr/bin/env python" _ (by decide)).trans ?_
  refine (go t!"# -*- coding: us-ascii -*-" _ (by decide)).trans ?_
  refine (go t!"# vim: syntax=python" _ (by decide)).trans ?_
  refine (go t!"#" _ (by decide)).trans ?_
  refine (go t!"# DO NOT EDIT" _ (by decide)).trans ?_
  refine (go t!"# this test file is generated by t2k.py" _ (by decide)).trans ?_
  refine (go [] _ (by decide)).trans ?_
  refine (go t!"import unittest" _ (by decide)).trans ?_
  refine (go t!"from bglib.encoding.bearoff.trice import *" _ (by decide)).trans ?_
  refine (go [] _ (by decide)).trans ?_
  refine (go [] _ (by decide)).trans ?_
  exact go t!"class ConvTest(unittest.TestCase):" rest (by decide)

/-! ### Names -/

theorem decimal_small {n : Nat} (h : n ≤ 9) : decimal n = [digitChar n] := by
  rw [decimal, decimalAux, if_pos (by omega)]

theorem flat_small {xs : List Nat} (h : ∀ x ∈ xs, x ≤ 9) : xs.flatMap decimal = xs.map digitChar := by
  induction xs with
  | nil => rfl
  | cons x xs ih =>
    rw [List.flatMap_cons, decimal_small (h x (by simp)), ih fun y hy => h y (by simp [hy])]
    rfl

theorem small_inj {xs ys : List Nat} (hx : ∀ x ∈ xs, x ≤ 9) (hy : ∀ y ∈ ys, y ≤ 9) (e : xs.map digitChar = ys.map digitChar) : xs = ys := by
  have key : ∀ a < 10, ∀ b < 10, digitChar a = digitChar b → a = b := by decide
  induction xs generalizing ys with
  | nil => cases ys with
    | nil => rfl
    | cons y ys => cases e
  | cons x xs ih =>
    cases ys with
    | nil => cases e
    | cons y ys =>
      obtain ⟨e1, e2⟩ := List.cons.inj e
      rw [key x (by have := hx x (by simp); omega) y (by have := hy y (by simp); omega) e1,
        ih (fun z hz => hx z (by simp [hz])) (fun z hz => hy z (by simp [hz])) e2]

theorem name_inj {r s : Row} (hr : Small r) (hs : Small s) (e : testName (toCase r) = testName (toCase s)) : r.2 = s.2 := by
  rw [name_decimal, name_decimal, flat_small hr.2.2.1, flat_small hr.2.2.2, flat_small hs.2.2.1, flat_small hs.2.2.2] at e
  have e := List.append_cancel_right e
  rw [List.append_assoc, List.append_assoc] at e
  have e := List.append_cancel_left e
  obtain ⟨e1, e2⟩ := List.append_inj e (by rw [List.length_map, List.length_map, hr.1, hs.1])
  exact Prod.ext (small_inj hr.2.2.1 hs.2.2.1 e1) (small_inj hr.2.2.2 hs.2.2.2 e2)

theorem run_all (as : List Asked) (h : as.Pairwise fun a b => a.1 ≠ b.1) : run as = as := by
  induction as with
  | nil => rfl
  | cons a as ih =>
    obtain ⟨h1, h2⟩ := List.pairwise_cons.1 h
    rw [run, if_neg, ih h2]
    intro hh
    obtain ⟨b, hb, e⟩ := List.any_eq_true.1 hh
    exact h1 b hb (by simpa using (of_decide_eq_true e).symm)

end Bglib.Spec.BearoffTests
