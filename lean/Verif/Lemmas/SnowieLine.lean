import Verif.Lemmas.Names
import Verif.Spec.SnowieLine
import Verif.Lemmas.Heads
import Verif.Lemmas.Text
/-
Helper lemmas: when the patterns of lines match.
-/
namespace Bglib.Snowie
open Spec

/-! ### Ways to match -/

theorem mem_seq_intro {a b : Re} {p q x : Place} (h : q ∈ a.all p) (h' : x ∈ b.all q) : x ∈ (Re.seq a b).all p :=
  List.mem_flatMap.2 ⟨q, h, h'⟩

theorem mem_set_intro {s : CharSet} {c : Char} (h : s.mem c = true) (st : Bool) (r : Text) (g : List (Text × Text)) :
    ⟨false, r, g⟩ ∈ (Re.set s).all ⟨st, c :: r, g⟩ := by simp [Re.all, h]

theorem mem_ch_intro (c : Char) (st : Bool) (r : Text) (g : List (Text × Text)) :
    ⟨false, r, g⟩ ∈ (Re.ch c).all ⟨st, c :: r, g⟩ := mem_set_intro (by simp [charSet_single]) st r g

theorem mem_lit_intro (c : Char) (t : Text) (st : Bool) (r : Text) (g : List (Text × Text)) :
    ⟨false, r, g⟩ ∈ (Re.lit (c :: t)).all ⟨st, c :: t ++ r, g⟩ := by
  induction t generalizing c st with
  | nil => exact mem_ch_intro c st r g
  | cons d t ih => exact mem_seq_intro (mem_ch_intro c st _ g) (ih d false)

theorem mem_repAll_intro {s : CharSet} (u : Text) (hu : ∀ c ∈ u, s.mem c = true) (n min : Nat) (hn : u.length ≤ n)
    (hm : min ≤ u.length) (st : Bool) (r : Text) (g : List (Text × Text)) :
    ⟨st && u.isEmpty, r, g⟩ ∈ repAll (Re.set s).all n min ⟨st, u ++ r, g⟩ := by
  induction u generalizing n min st with
  | nil =>
    have : min = 0 := by simpa using hm
    subst this
    cases n <;> simp [repAll]
  | cons c u ih =>
    cases n with
    | zero => simp at hn
    | succ n =>
      rw [List.cons_append, repAll_set_cons (hu c (by simp))]
      refine List.mem_append_left _ ?_
      simpa using ih (fun x hx => hu x (by simp [hx])) n (min - 1) (by simpa using hn) (by simp at hm; omega) false

theorem mem_star_intro {s : CharSet} (u : Text) (hu : ∀ c ∈ u, s.mem c = true) (st : Bool) (r : Text)
    (g : List (Text × Text)) : ⟨st && u.isEmpty, r, g⟩ ∈ (Re.star (.set s)).all ⟨st, u ++ r, g⟩ :=
  mem_repAll_intro u hu _ 0 (by simp) (by omega) st r g

theorem mem_plus_intro {s : CharSet} (u : Text) (hne : u ≠ []) (hu : ∀ c ∈ u, s.mem c = true) (st : Bool) (r : Text)
    (g : List (Text × Text)) : ⟨false, r, g⟩ ∈ (Re.plus (.set s)).all ⟨st, u ++ r, g⟩ := by
  have h1 : 1 ≤ u.length := by cases u with
    | nil => exact absurd rfl hne
    | cons => simp
  have := mem_repAll_intro (s := s) u hu (u ++ r).length 1 (by simp) h1 st r g
  have hi : u.isEmpty = false := by simpa using hne
  rw [hi, Bool.and_false] at this
  exact this

theorem mem_group_intro {a : Re} {p q : Place} (n : Text) (h : q ∈ a.all p) :
    ∃ u, ⟨q.start, q.rest, (n, u) :: q.groups⟩ ∈ (Re.group n a).all p :=
  ⟨between p q, List.mem_map.2 ⟨q, h, rfl⟩⟩

theorem mem_opt_skip (a : Re) (p : Place) : p ∈ a.opt.all p := by
  show p ∈ repAll a.all 1 0 p
  rw [repAll]
  exact List.mem_append_right _ (by simp)

theorem mem_opt_take {a : Re} {p q : Place} (h : q ∈ a.all p) (hl : q.rest.length < p.rest.length) : q ∈ a.opt.all p := by
  show q ∈ repAll a.all 1 0 p
  rw [repAll]
  refine List.mem_append_left _ (List.mem_flatMap.2 ⟨q, List.mem_filter.2 ⟨h, by simpa using hl⟩, by simp [repAll]⟩)

theorem mem_star_skip (a : Re) (p : Place) : p ∈ a.star.all p := by
  show p ∈ repAll a.all _ 0 p
  generalize (none : Option Nat).getD p.rest.length = n
  cases n <;> simp [repAll]

theorem mem_star_set {s : CharSet} {p q : Place} (h : q ∈ (Re.set s).star.all p) :
    ∃ t : Text, p.rest = t ++ q.rest ∧ q.groups = p.groups ∧ ∀ c ∈ t, s.mem c = true := by
  obtain ⟨t, _, h2, h3, h4⟩ := repAll_set _ 0 p q h
  exact ⟨t, h2, h3, h4⟩

/-! ### Sets -/

theorem digit_mem (c : Char) : CharSet.mem ⟨false, digits⟩ c = true ↔ '0' ≤ c ∧ c ≤ '9' := by
  simp [CharSet.mem, digits]

theorem name_mem (c : Char) : nameSet.mem c = true ↔ c ≠ ',' ∧ c ≠ ':' := by
  have h1 := charSet_single ',' c
  have h2 := charSet_single ':' c
  simp only [CharSet.mem, List.any_cons, List.any_nil, Bool.or_false, Bool.bne_false] at h1 h2
  simp only [nameSet, CharSet.mem, List.any_cons, List.any_nil, Bool.or_false]
  cases a : (decide (',' ≤ c) && decide (c ≤ ',')) <;> cases b : (decide (':' ≤ c) && decide (c ≤ ':')) <;>
    simp_all

theorem blanks_replicate {t : Text} (h : ∀ c ∈ t, CharSet.mem ⟨false, [(' ', ' ')]⟩ c = true) :
    t = List.replicate t.length ' ' :=
  List.eq_replicate_iff.2 ⟨rfl, fun c hc => (charSet_single ' ' c).1 (h c hc)⟩

theorem replicate_blanks (n : Nat) : ∀ c ∈ List.replicate n ' ', CharSet.mem ⟨false, [(' ', ' ')]⟩ c = true := by
  intro c hc
  rw [List.eq_of_mem_replicate hc]
  simp [charSet_single]

theorem ne_nil_of_mem {α : Type} {l : List α} {x : α} (h : x ∈ l) : l ≠ [] := by rintro rfl; cases h

/-! ### The patterns -/

theorem digits_intro {d : Text} (h : Digits d) (st : Bool) (r : Text) (g : List (Text × Text)) :
    ⟨false, r, g⟩ ∈ (Re.plus digitRe).all ⟨st, d ++ r, g⟩ :=
  mem_plus_intro d h.1 (fun c hc => (digit_mem c).2 (h.2 c hc)) st r g

theorem digits_elim {p q : Place} (h : q ∈ (Re.plus digitRe).all p) :
    ∃ d, Digits d ∧ p.rest = d ++ q.rest ∧ q.groups = p.groups := by
  obtain ⟨d, h1, h2, h3, h4⟩ := mem_plus_set h
  exact ⟨d, ⟨h1, fun c hc => (digit_mem c).1 (h4 c hc)⟩, h2, h3⟩

theorem blanks_intro (n : Nat) (st : Bool) (r : Text) (g : List (Text × Text)) :
    ∃ st', ⟨st', r, g⟩ ∈ blanksRe.all ⟨st, List.replicate n ' ' ++ r, g⟩ :=
  ⟨_, mem_star_intro _ (replicate_blanks n) st r g⟩

theorem blanks_elim {p q : Place} (h : q ∈ blanksRe.all p) :
    ∃ n, p.rest = List.replicate n ' ' ++ q.rest ∧ q.groups = p.groups := by
  obtain ⟨t, h1, h2, h3⟩ := mem_star_set h
  exact ⟨t.length, by rw [← blanks_replicate h3]; exact h1, h2⟩

theorem bol_intro (r : Text) (g : List (Text × Text)) : ⟨true, r, g⟩ ∈ Re.bol.all ⟨true, r, g⟩ := by simp [Re.all]

theorem matchLength_iff (t : Text) : matchLengthRe.all ⟨true, t, []⟩ ≠ [] ↔ IsMatchLength t := by
  constructor
  · intro h
    obtain ⟨q, hq⟩ := List.exists_mem_of_ne_nil _ h
    obtain ⟨q, s, hq, _⟩ := mem_group hq
    obtain ⟨p1, h1, hq⟩ := mem_seq hq
    obtain ⟨_, rfl⟩ := mem_bol h1
    obtain ⟨p2, h2, hq⟩ := mem_seq hq
    obtain ⟨e2, _⟩ := mem_ch h2
    obtain ⟨p3, h3, hq⟩ := mem_seq hq
    obtain ⟨d, hd, e3, _⟩ := digits_elim h3
    obtain ⟨e4, _⟩ := mem_lit hq
    refine ⟨d, q.rest, hd, ?_⟩
    simp only at e2
    rw [e2, e3, e4]
    simp
  · rintro ⟨d, rest, hd, rfl⟩
    have : (⟨true, t!" " ++ d ++ t!" point match" ++ rest, []⟩ : Place) = ⟨true, ' ' :: (d ++ (t!" point match" ++ rest)), []⟩ := by simp
    rw [this]
    obtain ⟨u, hu⟩ := mem_group_intro t!"mathclength" (mem_seq_intro (bol_intro _ [])
      (mem_seq_intro (mem_ch_intro ' ' true _ []) (mem_seq_intro (digits_intro hd false _ []) (mem_lit_intro ' ' _ false rest []))))
    exact ne_nil_of_mem hu

theorem gameHeader_iff (t : Text) : gameHeaderRe.all ⟨true, t, []⟩ ≠ [] ↔ IsGameHeader t := by
  constructor
  · intro h
    obtain ⟨q, hq⟩ := List.exists_mem_of_ne_nil _ h
    obtain ⟨q, s, hq, _⟩ := mem_group hq
    obtain ⟨p1, h1, hq⟩ := mem_seq hq
    obtain ⟨_, rfl⟩ := mem_bol h1
    obtain ⟨p2, h2, hq⟩ := mem_seq hq
    obtain ⟨n, e2, _⟩ := blanks_elim h2
    obtain ⟨p3, h3, hq⟩ := mem_seq hq
    obtain ⟨e3, _⟩ := mem_lit h3
    obtain ⟨d, hd, e4, _⟩ := digits_elim hq
    refine ⟨n, d, q.rest, hd, ?_⟩
    simp only at e2
    rw [e2, e3, e4]
    simp
  · rintro ⟨n, d, rest, hd, rfl⟩
    have : (⟨true, List.replicate n ' ' ++ t!"Game " ++ d ++ rest, []⟩ : Place) =
      ⟨true, List.replicate n ' ' ++ (t!"Game " ++ (d ++ rest)), []⟩ := by simp
    rw [this]
    obtain ⟨st, hs⟩ := blanks_intro n true (t!"Game " ++ (d ++ rest)) []
    obtain ⟨u, hu⟩ := mem_group_intro t!"gameheader" (mem_seq_intro (bol_intro _ [])
      (mem_seq_intro hs (mem_seq_intro (mem_lit_intro 'G' _ st _ []) (digits_intro hd false rest []))))
    exact ne_nil_of_mem hu

theorem result_iff (t : Text) : resultRe.all ⟨true, t, []⟩ ≠ [] ↔ IsResult t := by
  constructor
  · intro h
    obtain ⟨q, hq⟩ := List.exists_mem_of_ne_nil _ h
    obtain ⟨q, s, hq, _⟩ := mem_group hq
    obtain ⟨p1, h1, hq⟩ := mem_seq hq
    obtain ⟨_, rfl⟩ := mem_bol h1
    obtain ⟨p2, h2, hq⟩ := mem_seq hq
    obtain ⟨n, e2, _⟩ := blanks_elim h2
    obtain ⟨p3, h3, hq⟩ := mem_seq hq
    obtain ⟨e3, _⟩ := mem_lit h3
    obtain ⟨p4, h4, hq⟩ := mem_seq hq
    obtain ⟨d, hd, e4, _⟩ := digits_elim h4
    obtain ⟨p5, h5, hq⟩ := mem_seq hq
    obtain ⟨e5, _⟩ := mem_lit h5
    refine ⟨n, d, p5.rest, hd, ?_⟩
    simp only at e2
    rw [e2, e3, e4, e5]
    simp
  · rintro ⟨n, d, rest, hd, rfl⟩
    have : (⟨true, List.replicate n ' ' ++ t!"Wins " ++ d ++ t!" point" ++ rest, []⟩ : Place) =
      ⟨true, List.replicate n ' ' ++ (t!"Wins " ++ (d ++ (t!" point" ++ rest))), []⟩ := by simp
    rw [this]
    obtain ⟨st, hs⟩ := blanks_intro n true (t!"Wins " ++ (d ++ (t!" point" ++ rest))) []
    obtain ⟨u, hu⟩ := mem_group_intro t!"results2" (mem_seq_intro (bol_intro _ [])
      (mem_seq_intro hs (mem_seq_intro (mem_lit_intro 'W' _ st _ []) (mem_seq_intro (digits_intro hd false _ [])
        (mem_seq_intro (mem_lit_intro ' ' _ false rest []) (mem_opt_skip (.ch 's') _))))))
    exact ne_nil_of_mem hu

theorem player_intro {t : Text} (h : IsPlayer t) (st : Bool) (r : Text) (g : List (Text × Text)) :
    ⟨false, r, g⟩ ∈ playerRe.all ⟨st, t ++ r, g⟩ := by
  obtain ⟨name, rating, score, hn, hc, hr, hs, rfl⟩ := h
  have e : name ++ rating ++ t!" : " ++ score ++ r = name ++ (rating ++ (t!" : " ++ (score ++ r))) := by simp
  rw [e]
  refine mem_seq_intro (mem_plus_intro name hn (fun c h => (name_mem c).2 (hc c h)) st _ g) (mem_seq_intro (q := ⟨false, t!" : " ++ (score ++ r), g⟩) ?_
    (mem_seq_intro (mem_lit_intro ' ' _ false _ g) (digits_intro hs false r g)))
  rcases hr with rfl | ⟨d, hd, rfl⟩
  · exact mem_opt_skip _ _
  · refine mem_opt_take (mem_seq_intro (mem_ch_intro ',' false _ g) (digits_intro hd false _ g)) ?_
    simp only [List.cons_append, List.length_cons, List.length_append]
    omega

theorem player_elim {p q : Place} (h : q ∈ playerRe.all p) : ∃ t, IsPlayer t ∧ p.rest = t ++ q.rest := by
  obtain ⟨p1, h1, h⟩ := mem_seq h
  obtain ⟨name, hn, e1, _, hc⟩ := mem_plus_set h1
  obtain ⟨p2, h2, h⟩ := mem_seq h
  obtain ⟨p3, h3, h⟩ := mem_seq h
  obtain ⟨e3, _⟩ := mem_lit h3
  obtain ⟨d, hd, e4, _⟩ := digits_elim h
  rcases mem_opt h2 with rfl | h2
  · refine ⟨name ++ [] ++ t!" : " ++ d, ⟨name, [], d, hn, fun c h => (name_mem c).1 (hc c h), .inl rfl, hd, rfl⟩, ?_⟩
    rw [e1, e3, e4]
    simp
  · obtain ⟨p4, h4, h2⟩ := mem_seq h2
    obtain ⟨e5, _⟩ := mem_ch h4
    obtain ⟨r, hr, e6, _⟩ := digits_elim h2
    refine ⟨name ++ (',' :: r) ++ t!" : " ++ d,
      ⟨name, ',' :: r, d, hn, fun c h => (name_mem c).1 (hc c h), .inr ⟨r, hr, rfl⟩, hd, rfl⟩, ?_⟩
    rw [e1, e5, e6, e3, e4]
    simp

theorem playerHeader_iff (t : Text) : playerHeaderRe.all ⟨true, t, []⟩ ≠ [] ↔ IsPlayerHeader t := by
  constructor
  · intro h
    obtain ⟨q, hq⟩ := List.exists_mem_of_ne_nil _ h
    obtain ⟨q, s, hq, _⟩ := mem_group hq
    obtain ⟨p1, h1, hq⟩ := mem_seq hq
    obtain ⟨_, rfl⟩ := mem_bol h1
    obtain ⟨p2, h2, hq⟩ := mem_seq hq
    obtain ⟨e2, _⟩ := mem_ch h2
    obtain ⟨p3, h3, hq⟩ := mem_seq hq
    obtain ⟨p3', _, h3', _, rfl⟩ := mem_group h3
    obtain ⟨a, ha, e3⟩ := player_elim h3'
    obtain ⟨p4, h4, hq⟩ := mem_seq hq
    obtain ⟨n, e4, _⟩ := blanks_elim h4
    obtain ⟨p5, _, h5, _, rfl⟩ := mem_group hq
    obtain ⟨b, hb, e5⟩ := player_elim h5
    refine ⟨a, n, b, p5.rest, ha, hb, ?_⟩
    simp only at e2 e4
    rw [e2, e3, e4, e5]
    simp
  · rintro ⟨a, n, b, rest, ha, hb, rfl⟩
    have : (⟨true, t!" " ++ a ++ List.replicate n ' ' ++ b ++ rest, []⟩ : Place) =
      ⟨true, ' ' :: (a ++ (List.replicate n ' ' ++ (b ++ rest))), []⟩ := by simp
    rw [this]
    obtain ⟨u1, h1⟩ := mem_group_intro t!"player1" (player_intro ha false (List.replicate n ' ' ++ (b ++ rest)) [])
    obtain ⟨st, hs⟩ := blanks_intro n false (b ++ rest) [(t!"player1", u1)]
    obtain ⟨u2, h2⟩ := mem_group_intro t!"player2" (player_intro hb st rest [(t!"player1", u1)])
    obtain ⟨u, hu⟩ := mem_group_intro t!"playerheader" (mem_seq_intro (bol_intro _ [])
      (mem_seq_intro (mem_ch_intro ' ' true _ []) (mem_seq_intro h1 (mem_seq_intro hs h2))))
    exact ne_nil_of_mem hu

/-! ### Lines with moves -/

theorem movesTail_intro (p : Place) : p ∈ movesTailRe.all p :=
  mem_seq_intro (mem_opt_skip _ p) (mem_seq_intro (mem_star_skip _ p) (mem_seq_intro (mem_opt_skip _ p)
    (mem_seq_intro (mem_star_skip _ p) (mem_opt_skip _ p))))

theorem moves_elim {t : Text} {q : Place} (h : q ∈ movesRe.all ⟨true, t, []⟩) :
    ∃ n d rest, Digits d ∧ t = List.replicate n ' ' ++ d ++ t!") " ++ rest ∧ Doc.groupOf q.groups t!"nthmove" = some d := by
  obtain ⟨q, s, hq, _, rfl⟩ := mem_group h
  obtain ⟨p1, h1, hq⟩ := mem_seq hq
  obtain ⟨_, rfl⟩ := mem_bol h1
  obtain ⟨p2, h2, hq⟩ := mem_seq hq
  obtain ⟨n, e2, g2⟩ := blanks_elim h2
  obtain ⟨p3, h3, hq⟩ := mem_seq hq
  obtain ⟨p3', d', h3', e3', rfl⟩ := mem_group h3
  obtain ⟨d, hd, e3, g3⟩ := digits_elim h3'
  obtain rfl : d' = d := List.append_cancel_right (e3'.symm.trans e3)
  obtain ⟨p4, h4, hq⟩ := mem_seq hq
  obtain ⟨e4, g4⟩ := mem_ch h4
  obtain ⟨p5, h5, hq⟩ := mem_seq hq
  obtain ⟨b, hb, e5, g5, hb'⟩ := mem_plus_set h5
  obtain ⟨gs, g6, hn⟩ := all_names _ _ _ hq
  simp only at e2 g2 e4 g4
  obtain ⟨c, b, rfl⟩ := List.exists_cons_of_ne_nil hb
  obtain rfl : c = ' ' := (charSet_single ' ' c).1 (hb' c (by simp))
  refine ⟨n, d', b ++ p5.rest, hd, by rw [e2, e3, e4, e5]; simp, ?_⟩
  simp only [Doc.groupOf]
  rw [List.find?_cons_of_neg (by simp), g6, List.find?_append, g5, g4]
  have : gs.find? (fun x => decide (x.1 = t!"nthmove")) = none := by
    rw [List.find?_eq_none]
    intro x hx
    have := hn x hx
    intro e
    rw [of_decide_eq_true e] at this
    revert this
    decide
  rw [this]
  simp

theorem moves_intro {n : Nat} {d rest : Text} (hd : Digits d) :
    movesRe.all ⟨true, List.replicate n ' ' ++ d ++ t!") " ++ rest, []⟩ ≠ [] := by
  have : (⟨true, List.replicate n ' ' ++ d ++ t!") " ++ rest, []⟩ : Place) =
    ⟨true, List.replicate n ' ' ++ (d ++ (')' :: ([' '] ++ rest))), []⟩ := by simp
  rw [this]
  obtain ⟨st, hs⟩ := blanks_intro n true (d ++ (')' :: ([' '] ++ rest))) []
  obtain ⟨u1, h1⟩ := mem_group_intro t!"nthmove" (digits_intro hd st (')' :: ([' '] ++ rest)) [])
  obtain ⟨u, hu⟩ := mem_group_intro t!"moves" (mem_seq_intro (bol_intro _ [])
    (mem_seq_intro hs (mem_seq_intro h1 (mem_seq_intro (mem_ch_intro ')' false _ _)
      (mem_seq_intro (mem_plus_intro [' '] (by simp) (replicate_blanks 1) false rest _) (movesTail_intro _))))))
  exact ne_nil_of_mem hu

/-! ### Which kind -/

theorem readDigits_digits (d : Text) (h : ∀ c ∈ d, '0' ≤ c ∧ c ≤ '9') (acc : Nat) (seen : Bool) :
    ∃ n, readDigits acc seen d = (n, seen || !d.isEmpty, []) := by
  induction d generalizing acc seen with
  | nil => exact ⟨acc, by simp [readDigits]⟩
  | cons c d ih =>
    obtain ⟨n, e⟩ := ih (fun x hx => h x (by simp [hx])) (acc * 10 + (c.toNat - 48)) true
    refine ⟨n, ?_⟩
    simp only [readDigits, digitVal, if_pos (h c (by simp)), e]
    simp

theorem digit_not_space {c : Char} (h : '0' ≤ c ∧ c ≤ '9') : isSpace c = false := by
  have h1 : 48 ≤ c.toNat := h.1
  unfold isSpace
  simp only [Bool.or_eq_false_iff, decide_eq_false_iff_not]
  refine ⟨⟨⟨⟨⟨?_, ?_⟩, ?_⟩, ?_⟩, ?_⟩, ?_⟩ <;> (rintro rfl; revert h1; decide)

theorem pyInt_digits {d : Text} (h : Digits d) : ∃ n : Nat, pyInt d = some (n : Int) := by
  obtain ⟨h1, h2⟩ := h
  obtain ⟨c, r, rfl⟩ := List.exists_cons_of_ne_nil h1
  have hc := h2 c (by simp)
  obtain ⟨n, e⟩ := readDigits_digits (c :: r) h2 0 false
  refine ⟨n, ?_⟩
  unfold pyInt
  rw [List.dropWhile_cons_of_neg (by simp [digit_not_space hc])]
  have n1 : c ≠ '-' := by rintro rfl; revert hc; decide
  have n2 : c ≠ '+' := by rintro rfl; revert hc; decide
  split
  · next e' => exact absurd (List.cons.inj e').1 n1
  · next e' => exact absurd (List.cons.inj e').1 n2
  · simp [readNat, e]

theorem firstPattern_skip {α : Type} {n : α} {r : Re} {l : List (α × Re)} {p : Place} (h : r.all p = []) :
    firstPattern ((n, r) :: l) p = firstPattern l p := by simp [firstPattern, h]

theorem firstPattern_take {α : Type} {n : α} {r : Re} {l : List (α × Re)} {p : Place} (h : r.all p ≠ []) :
    ∃ q ∈ r.all p, firstPattern ((n, r) :: l) p = some (n, between p q, q.groups, q) := by
  cases e : r.all p with
  | nil => exact absurd e h
  | cons q t => exact ⟨q, by simp, by simp [firstPattern, e]⟩

theorem blank_iff (t : Text) : t.all isSpace = true ↔ IsBlank t := List.all_eq_true

/-- The first letter that is not a blank. -/
def firstLetter (t : Text) : Option Char := (t.dropWhile (· = ' ')).head?

theorem firstLetter_replicate (n : Nat) (c : Char) (r : Text) (h : c ≠ ' ') :
    firstLetter (List.replicate n ' ' ++ c :: r) = some c := by
  unfold firstLetter
  induction n with
  | zero => simp [h]
  | succ n ih => simpa [List.replicate_succ] using ih

theorem digit_ne_blank {c : Char} (h : '0' ≤ c ∧ c ≤ '9') : c ≠ ' ' := by rintro rfl; revert h; decide

theorem digits_behind {a b : Text} {x y : Char} {r s : Text} (ha : ∀ c ∈ a, '0' ≤ c ∧ c ≤ '9')
    (hb : ∀ c ∈ b, '0' ≤ c ∧ c ≤ '9') (hx : ¬ ('0' ≤ x ∧ x ≤ '9')) (hy : ¬ ('0' ≤ y ∧ y ≤ '9'))
    (e : a ++ x :: r = b ++ y :: s) : x = y ∧ r = s ∧ a = b := by
  induction a generalizing b with
  | nil =>
    cases b with
    | nil => simp only [List.nil_append, List.cons.injEq] at e; exact ⟨e.1, e.2, rfl⟩
    | cons c b =>
      simp only [List.nil_append, List.cons_append, List.cons.injEq] at e
      exact absurd (hb c (by simp)) (e.1 ▸ hx)
  | cons d a ih =>
    cases b with
    | nil =>
      simp only [List.nil_append, List.cons_append, List.cons.injEq] at e
      exact absurd (ha d (by simp)) (e.1 ▸ hy)
    | cons c b =>
      simp only [List.cons_append, List.cons.injEq] at e
      obtain ⟨h1, h2, h3⟩ := ih (fun x hx => ha x (by simp [hx])) (fun x hx => hb x (by simp [hx])) e.2
      exact ⟨h1, h2, by rw [e.1, h3]⟩

theorem blanks_behind {m n : Nat} {x y : Char} {r s : Text} (hx : x ≠ ' ') (hy : y ≠ ' ')
    (e : List.replicate m ' ' ++ x :: r = List.replicate n ' ' ++ y :: s) : m = n ∧ x :: r = y :: s := by
  induction m generalizing n with
  | zero =>
    cases n with
    | zero => exact ⟨rfl, e⟩
    | succ n =>
      simp only [List.replicate_zero, List.nil_append, List.replicate_succ, List.cons_append, List.cons.injEq] at e
      exact absurd e.1 hx
  | succ m ih =>
    cases n with
    | zero =>
      simp only [List.replicate_zero, List.nil_append, List.replicate_succ, List.cons_append, List.cons.injEq] at e
      exact absurd e.1.symm hy
    | succ n =>
      simp only [List.replicate_succ, List.cons_append, List.cons.injEq, true_and] at e
      obtain ⟨h1, h2⟩ := ih e
      exact ⟨by rw [h1], h2⟩

theorem matchLength_first {t : Text} (h : IsMatchLength t) : ∃ c, firstLetter t = some c ∧ '0' ≤ c ∧ c ≤ '9' := by
  obtain ⟨d, rest, ⟨hd, hc⟩, rfl⟩ := h
  obtain ⟨c, d, rfl⟩ := List.exists_cons_of_ne_nil hd
  have := hc c (by simp)
  refine ⟨c, ?_, this⟩
  have := firstLetter_replicate 1 c (d ++ t!" point match" ++ rest) (digit_ne_blank this)
  simpa using this

theorem gameHeader_first {t : Text} (h : IsGameHeader t) : firstLetter t = some 'G' := by
  obtain ⟨n, d, rest, hd, rfl⟩ := h
  have := firstLetter_replicate n 'G' (t!"ame " ++ d ++ rest) (by decide)
  simpa using this

theorem result_first {t : Text} (h : IsResult t) : firstLetter t = some 'W' := by
  obtain ⟨n, d, rest, hd, rfl⟩ := h
  have := firstLetter_replicate n 'W' (t!"ins " ++ d ++ t!" point" ++ rest) (by decide)
  simpa using this

theorem moves_first {t : Text} {k : Nat} (h : IsMoves k t) : ∃ c, firstLetter t = some c ∧ '0' ≤ c ∧ c ≤ '9' := by
  obtain ⟨n, d, rest, ⟨hd, hc⟩, _, rfl⟩ := h
  obtain ⟨c, d, rfl⟩ := List.exists_cons_of_ne_nil hd
  have := hc c (by simp)
  refine ⟨c, ?_, this⟩
  have := firstLetter_replicate n c (d ++ t!") " ++ rest) (digit_ne_blank this)
  simpa using this

theorem blank_first {t : Text} (h : IsBlank t) (c : Char) (hc : firstLetter t = some c) : isSpace c = true :=
  h c ((List.dropWhile_suffix _).subset (List.mem_of_mem_head? hc))

theorem matchLength_not_moves {t : Text} {k : Nat} (h : IsMatchLength t) : ¬ IsMoves k t := by
  obtain ⟨d, rest, ⟨hd, hc⟩, rfl⟩ := h
  rintro ⟨n, d', rest', ⟨hd', hc'⟩, _, e⟩
  obtain ⟨c, d, rfl⟩ := List.exists_cons_of_ne_nil hd
  obtain ⟨c', d', rfl⟩ := List.exists_cons_of_ne_nil hd'
  have e : List.replicate 1 ' ' ++ c :: (d ++ ' ' :: (t!"point match" ++ rest)) = List.replicate n ' ' ++ c' :: (d' ++ ')' :: (' ' :: rest')) := by
    simpa using e
  obtain ⟨_, e⟩ := blanks_behind (digit_ne_blank (hc c (by simp))) (digit_ne_blank (hc' c' (by simp))) e
  obtain ⟨h, _⟩ := digits_behind (x := ' ') (y := ')') (a := c :: d) (b := c' :: d') hc hc' (by decide) (by decide) (by simpa using e)
  exact absurd h (by decide)

theorem kind_blank {t : Text} (h : IsBlank t) : kindOf t = .empty := by
  unfold kindOf
  rw [if_pos ((blank_iff t).2 h)]

theorem not_blank {t : Text} (c : Char) (hc : firstLetter t = some c) (hs : isSpace c = false) : ¬ t.all isSpace = true := by
  intro h
  have := blank_first ((blank_iff t).1 h) c hc
  rw [hs] at this
  cases this

theorem kind_matchLength {t : Text} (h : IsMatchLength t) : kindOf t = .matchLength := by
  obtain ⟨c, h1, h2⟩ := matchLength_first h
  unfold kindOf
  rw [if_neg (not_blank c h1 (digit_not_space h2)), linePats]
  obtain ⟨q, _, e⟩ := firstPattern_take (n := LineName.matchLength) (l := linePats.tail) ((matchLength_iff t).2 h)
  rw [linePats, List.tail_cons] at e
  rw [e]

theorem skip_of_not {r : Re} {p : Place} {P : Prop} (h : r.all p ≠ [] ↔ P) (hn : ¬ P) : r.all p = [] :=
  Classical.byContradiction fun e => hn (h.1 e)

theorem kind_gameHeader {t : Text} (h : IsGameHeader t) : kindOf t = .gameHeader := by
  have h1 := gameHeader_first h
  have n1 : ¬ IsMatchLength t := by
    intro h'
    obtain ⟨c, e, h2⟩ := matchLength_first h'
    rw [h1] at e
    cases e
    revert h2
    decide
  unfold kindOf
  rw [if_neg (not_blank _ h1 (by decide)), linePats, firstPattern_skip (skip_of_not (matchLength_iff t) n1)]
  obtain ⟨q, _, e⟩ := firstPattern_take (n := LineName.gameHeader) (l := linePats.tail.tail) ((gameHeader_iff t).2 h)
  rw [linePats, List.tail_cons, List.tail_cons] at e
  rw [e]

theorem player_not_blank {t : Text} (h : IsPlayerHeader t) : ¬ t.all isSpace = true := by
  intro hb
  rw [blank_iff] at hb
  obtain ⟨a, n, b, rest, ⟨name, rating, score, hn, _, _, hs, rfl⟩, _, rfl⟩ := h
  have := hb ':' (by simp)
  revert this
  decide

theorem kind_playerHeader {t : Text} (h : IsPlayerHeader t) (n1 : ¬ IsMatchLength t) (n2 : ¬ IsGameHeader t) :
    kindOf t = .playerHeader := by
  unfold kindOf
  rw [if_neg (player_not_blank h), linePats, firstPattern_skip (skip_of_not (matchLength_iff t) n1),
    firstPattern_skip (skip_of_not (gameHeader_iff t) n2)]
  obtain ⟨q, _, e⟩ := firstPattern_take (n := LineName.playerHeader) (l := linePats.tail.tail.tail) ((playerHeader_iff t).2 h)
  rw [linePats, List.tail_cons, List.tail_cons, List.tail_cons] at e
  rw [e]

theorem moves_not_gameHeader {t : Text} {k : Nat} (h : IsMoves k t) : ¬ IsGameHeader t := by
  intro h'
  obtain ⟨c, e, h2⟩ := moves_first h
  rw [gameHeader_first h'] at e
  cases e
  revert h2
  decide

theorem kind_moves {t : Text} {k : Nat} (h : IsMoves k t) (n3 : ¬ IsPlayerHeader t) : kindOf t = .moves k := by
  obtain ⟨c, e1, h2⟩ := moves_first h
  have n1 : ¬ IsMatchLength t := fun h' => matchLength_not_moves h' h
  obtain ⟨n, d, rest, hd, hk, rfl⟩ := h
  have n2 : ¬ IsGameHeader (List.replicate n ' ' ++ d ++ t!") " ++ rest) := moves_not_gameHeader ⟨n, d, rest, hd, hk, rfl⟩
  unfold kindOf
  rw [if_neg (not_blank c e1 (digit_not_space h2)), linePats, firstPattern_skip (skip_of_not (matchLength_iff _) n1),
    firstPattern_skip (skip_of_not (gameHeader_iff _) n2), firstPattern_skip (skip_of_not (playerHeader_iff _) n3)]
  obtain ⟨q, hq, e⟩ := firstPattern_take (n := LineName.moves) (l := linePats.tail.tail.tail.tail) (moves_intro (n := n) (rest := rest) hd)
  rw [linePats, List.tail_cons, List.tail_cons, List.tail_cons, List.tail_cons] at e
  rw [e]
  obtain ⟨n', d', rest', hd', et, eg⟩ := moves_elim hq
  obtain ⟨c1, d1, rfl⟩ := List.exists_cons_of_ne_nil hd.1
  obtain ⟨c2, d2, rfl⟩ := List.exists_cons_of_ne_nil hd'.1
  have et : List.replicate n ' ' ++ c1 :: (d1 ++ ')' :: (' ' :: rest)) = List.replicate n' ' ' ++ c2 :: (d2 ++ ')' :: (' ' :: rest')) := by
    simpa using et
  obtain ⟨_, et⟩ := blanks_behind (digit_ne_blank (hd.2 c1 (by simp))) (digit_ne_blank (hd'.2 c2 (by simp))) et
  obtain ⟨_, _, ed⟩ := digits_behind (x := ')') (y := ')') (a := c1 :: d1) (b := c2 :: d2) hd.2 hd'.2 (by decide) (by decide) (by simpa using et)
  simp only [eg, ← ed, Option.bind_some, hk, Option.getD_some, Int.toNat_natCast]

theorem kind_result {t : Text} (h : IsResult t) (n3 : ¬ IsPlayerHeader t) : kindOf t = .result := by
  have h1 := result_first h
  have n1 : ¬ IsMatchLength t := by
    intro h'
    obtain ⟨c, e, h2⟩ := matchLength_first h'
    rw [h1] at e
    cases e
    revert h2
    decide
  have n2 : ¬ IsGameHeader t := by
    intro h'
    rw [gameHeader_first h'] at h1
    cases h1
  have n4 : movesRe.all ⟨true, t, []⟩ = [] := by
    refine Classical.byContradiction fun e => ?_
    obtain ⟨q, hq⟩ := List.exists_mem_of_ne_nil _ e
    obtain ⟨n, d, rest, hd, et, _⟩ := moves_elim hq
    obtain ⟨k, hk⟩ := pyInt_digits hd
    obtain ⟨c, e1, h2⟩ := moves_first ⟨n, d, rest, hd, hk, et⟩
    rw [h1] at e1
    cases e1
    revert h2
    decide
  unfold kindOf
  rw [if_neg (not_blank _ h1 (by decide)), linePats, firstPattern_skip (skip_of_not (matchLength_iff _) n1),
    firstPattern_skip (skip_of_not (gameHeader_iff _) n2), firstPattern_skip (skip_of_not (playerHeader_iff _) n3),
    firstPattern_skip n4]
  obtain ⟨q, _, e⟩ := firstPattern_take (n := LineName.result) (l := []) ((result_iff t).2 h)
  rw [e]

theorem kind_bad {t : Text} (n0 : ¬ IsBlank t) (n1 : ¬ IsMatchLength t) (n2 : ¬ IsGameHeader t) (n3 : ¬ IsPlayerHeader t)
    (n4 : ∀ k, ¬ IsMoves k t) (n5 : ¬ IsResult t) : kindOf t = .bad := by
  have n4 : movesRe.all ⟨true, t, []⟩ = [] := by
    refine Classical.byContradiction fun e => ?_
    obtain ⟨q, hq⟩ := List.exists_mem_of_ne_nil _ e
    obtain ⟨n, d, rest, hd, et, _⟩ := moves_elim hq
    obtain ⟨k, hk⟩ := pyInt_digits hd
    exact n4 k ⟨n, d, rest, hd, hk, et⟩
  unfold kindOf
  rw [if_neg (fun h => n0 ((blank_iff t).1 h)), linePats, firstPattern_skip (skip_of_not (matchLength_iff _) n1),
    firstPattern_skip (skip_of_not (gameHeader_iff _) n2), firstPattern_skip (skip_of_not (playerHeader_iff _) n3),
    firstPattern_skip n4, firstPattern_skip (skip_of_not (result_iff _) n5)]
  rfl

end Bglib.Snowie
