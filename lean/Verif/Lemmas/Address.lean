import Verif.Lemmas.Heads
import Verif.Lemmas.Split
import Verif.Lemmas.Tracer
import Verif.Spec.Address
/-
Helper lemmas about the addresses of pictures.
-/
namespace Bglib.Doc
open Bglib Bglib.Spec

theorem idChars_mem (c : Char) : CharSet.mem ⟨false, idChars⟩ c = IdChar c := by
  have h (d : Char) : (decide (d ≤ c) && decide (c ≤ d)) = (c == d) := by
    have := charSet_single d c
    rw [Bool.eq_iff_iff]
    simpa [CharSet.mem] using this
  simp only [CharSet.mem, idChars, IdChar, List.any_cons, List.any_nil, Bool.or_false, Bool.bne_false, h,
    Bool.or_assoc]

theorem letterChars_mem (c : Char) : CharSet.mem ⟨false, letterChars⟩ c = AsciiLetter c := by
  simp only [CharSet.mem, letterChars, AsciiLetter, List.any_cons, List.any_nil, Bool.or_false, Bool.bne_false]

theorem digits_mem (c : Char) : CharSet.mem ⟨false, digits⟩ c = AsciiDigit c := by
  simp only [CharSet.mem, digits, AsciiDigit, List.any_cons, List.any_nil, Bool.or_false, Bool.bne_false]

theorem lit_all (c : Char) (t : Text) (st : Bool) (r : Text) (g : List (Text × Text)) :
    (Re.lit (c :: t)).all ⟨st, c :: t ++ r, g⟩ = [⟨false, r, g⟩] := by
  have hs : ∀ (c : Char) (st : Bool) (r : Text), (Re.ch c).all ⟨st, c :: r, g⟩ = [⟨false, r, g⟩] := by
    intro c st r
    have := (charSet_single c c).2 rfl
    simp [Re.ch, Re.all, this]
  induction t generalizing c st with
  | nil => exact hs c st r
  | cons d t ih =>
    show (Re.seq (.ch c) (.lit (d :: t))).all _ = _
    rw [Re.all]
    have : (Re.ch c).all ⟨st, c :: d :: t ++ r, g⟩ = [⟨false, d :: t ++ r, g⟩] := hs c st _
    rw [this]
    simpa using ih d false

theorem lit_nil (c : Char) (t : Text) (st : Bool) (r : Text) (g : List (Text × Text)) (h : ¬ c :: t <+: r) :
    (Re.lit (c :: t)).all ⟨st, r, g⟩ = [] := by
  have hs : ∀ (c : Char) (st : Bool) (r : Text), r.head? ≠ some c → (Re.ch c).all ⟨st, r, g⟩ = [] := by
    intro c st r hr
    cases r with
    | nil => rfl
    | cons d r =>
      have : CharSet.mem ⟨false, [(c, c)]⟩ d = false := by
        rcases hm : CharSet.mem ⟨false, [(c, c)]⟩ d with _ | _
        · rfl
        · rw [charSet_single] at hm; subst hm; exact absurd rfl hr
      simp [Re.ch, Re.all, this]
  have h1 : ∀ (c : Char) (st : Bool) (r : Text), (Re.ch c).all ⟨st, c :: r, g⟩ = [⟨false, r, g⟩] := by
    intro c st r
    have := (charSet_single c c).2 rfl
    simp [Re.ch, Re.all, this]
  induction t generalizing c st r with
  | nil =>
    refine hs c st r ?_
    intro e
    cases r with
    | nil => simp at e
    | cons d r => simp at e; subst e; exact h (by simp)
  | cons d t ih =>
    show (Re.seq (.ch c) (.lit (d :: t))).all _ = _
    rw [Re.all]
    by_cases e : r.head? = some c
    · cases r with
      | nil => simp at e
      | cons x r =>
        simp only [List.head?_cons, Option.some.injEq] at e
        subst e
        rw [h1]
        simp only [List.flatMap_cons, List.flatMap_nil, List.append_nil]
        refine ih d false r ?_
        intro hp
        exact h ((List.cons_prefix_cons).2 ⟨rfl, hp⟩)
    · rw [hs c st r e]; rfl

theorem repAll_exact (s : CharSet) (n : Nat) (st : Bool) (r : Text) (g : List (Text × Text)) :
    repAll (Re.set s).all n n ⟨st, r, g⟩ =
      if n ≤ r.length ∧ (r.take n).all s.mem then [⟨st && n == 0, r.drop n, g⟩] else [] := by
  induction n generalizing st r with
  | zero => simp [repAll]
  | succ n ih =>
    cases r with
    | nil => simp [repAll, Re.all]
    | cons c r =>
      by_cases hc : s.mem c = true
      · rw [repAll_set_cons hc]
        simp only [Nat.add_sub_cancel, Nat.add_eq_zero_iff, Nat.one_ne_zero, and_false, if_false, List.append_nil]
        rw [ih]
        simp [hc]
      · simp [repAll, Re.all, hc]

/-- What is left when all blanks are read. -/
theorem blanks_split (r : Text) : r = r.takeWhile (· = ' ') ++ r.dropWhile (· = ' ') :=
  (List.takeWhile_append_dropWhile).symm

theorem dropWhile_stops (s : CharSet) (ok : Char → Bool) (h : ∀ c, s.mem c = ok c) (r : Text) :
    Stops s (r.dropWhile ok) := by
  intro c hc
  rw [h]
  have := List.head?_dropWhile_not ok r
  rw [hc] at this
  simpa using this

theorem blanks_rest (u r : Text) (hu : ∀ c ∈ u, c = ' ') :
    r.head? = some ' ' ∨ r = (u ++ r).dropWhile (· = ' ') := by
  induction u with
  | nil =>
    cases r with
    | nil => right; simp
    | cons c x =>
      by_cases hcx : c = ' '
      · left; simp [hcx]
      · right; simp [hcx]
  | cons c u ih =>
    have := hu c (by simp)
    subst this
    rcases ih (fun c hc => hu c (by simp [hc])) with h | h
    · exact Or.inl h
    · right; simpa using h

theorem option_heads (name words : Text) (chars : List (Char × Char)) (ok : Char → Bool)
    (hok : ∀ c, CharSet.mem ⟨false, chars⟩ c = ok c) (hw : words ≠ []) (hw' : words.head? ≠ some ' ')
    (s : Text) (g : List (Text × Text)) :
    Heads (optionRe name words chars) ⟨false, s, g⟩
      (match readOption words ok s with
       | some (v, r) => ⟨false, r, (name, v) :: g⟩
       | none => ⟨false, s, g⟩) := by
  obtain ⟨w, ws, rfl⟩ : ∃ w ws, words = w :: ws := by
    cases words with
    | nil => exact absurd rfl hw
    | cons w ws => exact ⟨w, ws, rfl⟩
  have hblank : ∀ c, CharSet.mem ⟨false, [(' ', ' ')]⟩ c = (fun c => decide (c = ' ')) c := by
    intro c; rw [Bool.eq_iff_iff, charSet_single]; simp
  unfold optionRe
  -- no comma
  by_cases hc : s.head? = some ','
  case neg =>
    have hn : readOption (w :: ws) ok s = none := by
      unfold readOption
      split
      · simp at hc
      · rfl
    rw [hn]
    refine heads_opt_none (all_seq_nil (all_set_nil ?_))
    intro c hcs
    rcases hm : CharSet.mem ⟨false, [(',', ',')]⟩ c with _ | _
    · rfl
    · rw [charSet_single] at hm; subst hm; exact absurd hcs hc
  obtain ⟨r, rfl⟩ : ∃ r, s = ',' :: r := by
    cases s with
    | nil => simp at hc
    | cons c r => simp at hc; exact ⟨r, by rw [hc]⟩
  have hstar := fun g => heads_star (dropWhile_stops ⟨false, [(' ', ' ')]⟩ _ hblank r) (r.takeWhile (· = ' '))
    (fun c hc => by rw [hblank]; exact (List.all_takeWhile (p := fun c => decide (c = ' ')) (l := r) |> List.all_eq_true.1) c hc) false g
  rw [← blanks_split] at hstar
  simp only [Bool.false_and] at hstar
  -- every way of reading blanks but the first leaves a blank
  have hmem : ∀ q, q ∈ (Re.star (.ch ' ')).all ⟨false, r, g⟩ → q.rest.head? = some ' ' ∨
      q.rest = r.dropWhile (· = ' ') := by
    intro q hq
    obtain ⟨u, gs, e, _, hu, _⟩ := all_reads _ _ _ hq
    have hu' : ∀ c ∈ u, c = ' ' := fun c hc => by
      have := hu c hc
      simp only [Re.star, Re.chars, Re.ch] at this
      exact (charSet_single _ _).1 this
    simp only at e
    rw [e]
    exact blanks_rest u q.rest hu'
  by_cases hp : w :: ws <+: r.dropWhile (· = ' ')
  · obtain ⟨t, ht⟩ := hp
    have hdrop : (r.dropWhile (· = ' ')).drop (w :: ws).length = t := by rw [← ht]; simp
    have hpre : (w :: ws) <+: r.dropWhile (· = ' ') := ⟨t, ht⟩
    by_cases hv : t.takeWhile ok = []
    · have hn : readOption (w :: ws) ok (',' :: r) = none := by
        simp only [readOption, hpre, if_true, hdrop, hv]
      rw [hn]
      refine heads_opt_none ?_
      have hstop : Stops ⟨false, chars⟩ t := by
        intro c hct
        rw [hok]
        cases t with
        | nil => simp at hct
        | cons d t =>
          simp at hct; subst hct
          rw [List.takeWhile_cons] at hv
          split at hv
          · simp at hv
          · next h => simpa using h
      simp only [Re.all', Re.all, Re.ch]
      have hcm := (charSet_single ',' ',').2 rfl
      simp only [hcm, if_true, List.flatMap_cons, List.flatMap_nil, List.append_nil]
      rw [List.flatMap_eq_nil_iff]
      intro q hq
      have hq' := hmem q hq
      rw [List.flatMap_eq_nil_iff]
      intro q' hq2
      rcases hq' with h | h
      · have : (Re.lit (w :: ws)).all q = [] := by
          refine lit_nil w ws q.start q.rest q.groups ?_
          intro ⟨y, hy⟩
          rw [← hy] at h
          simp only [List.cons_append, List.head?_cons, Option.some.injEq] at h
          exact hw' (by simp [h])
        rw [this] at hq2; simp at hq2
      · have : (Re.lit (w :: ws)).all q = [⟨false, t, q.groups⟩] := by
          have := lit_all w ws q.start t q.groups
          rw [ht, ← h] at this
          exact this
        rw [this] at hq2
        simp only [List.mem_singleton] at hq2
        subst hq2
        have := all_plus_nil (s := ⟨false, chars⟩) (st := false) (g := q.groups) hstop
        simp only [Re.any]
        rw [this]; rfl
    · have hn : readOption (w :: ws) ok (',' :: r) = some (t.takeWhile ok, t.dropWhile ok) := by
        simp only [readOption, hpre, if_true, hdrop, hv, if_false]
      rw [hn]
      simp only
      refine heads_opt ?_ ?_
      · refine heads_seq (heads_ch ',' false r g) (heads_seq (hstar g) (heads_seq (q := ⟨false, t, g⟩) ?_ ?_))
        · rw [← ht]; exact heads_lit w ws false t g
        · have hpl := heads_plus (dropWhile_stops ⟨false, chars⟩ ok hok t) (t.takeWhile ok) hv
            (fun c hc => by rw [hok]; exact (List.all_eq_true.1 (List.all_takeWhile)) c hc) false g
          rw [List.takeWhile_append_dropWhile] at hpl
          have := heads_group name (t.takeWhile ok) hpl (by simp [List.takeWhile_append_dropWhile])
          exact this
      · have h1 : (t.dropWhile ok).length ≤ t.length := (List.dropWhile_sublist _).length_le
        have h2 : (r.dropWhile (· = ' ')).length ≤ r.length := (List.dropWhile_sublist _).length_le
        rw [← ht] at h2
        simp only [List.length_cons, List.length_append] at h2 ⊢
        omega
  · have hn : readOption (w :: ws) ok (',' :: r) = none := by
      simp only [readOption, hp, if_false]
    rw [hn]
    refine heads_opt_none ?_
    simp only [Re.all', Re.all, Re.ch]
    have hcm := (charSet_single ',' ',').2 rfl
    simp only [hcm, if_true, List.flatMap_cons, List.flatMap_nil, List.append_nil]
    rw [List.flatMap_eq_nil_iff]
    intro q hq
    have hq' := hmem q hq
    have : (Re.lit (w :: ws)).all q = [] := by
      refine lit_nil w ws q.start q.rest q.groups ?_
      rcases hq' with h | h
      · intro ⟨y, hy⟩
        rw [← hy] at h
        simp only [List.cons_append, List.head?_cons, Option.some.injEq] at h
        exact hw' (by simp [h])
      · rw [h]; exact hp
    rw [this]; rfl

theorem readOption_ne {words : Text} {ok : Char → Bool} {s v r : Text} (h : readOption words ok s = some (v, r)) :
    v ≠ [] := by
  unfold readOption at h
  split at h
  · simp only at h
    split at h
    · split at h
      · cases h
      · next hv =>
        simp only [Option.some.injEq, Prod.mk.injEq] at h
        rw [← h.1]; exact hv
    · cases h
  · cases h

theorem rep_exact (s : CharSet) (n : Nat) (st : Bool) (r : Text) (g : List (Text × Text)) :
    (Re.rep (.set s) n (some n)).all ⟨st, r, g⟩ =
      if n ≤ r.length ∧ (r.take n).all s.mem then [⟨st && n == 0, r.drop n, g⟩] else [] :=
  repAll_exact s n st r g

theorem all_seq_eq (a b : Re) (p : Place) : (Re.seq a b).all p = (a.all p).flatMap b.all := rfl

theorem all_group_eq (n : Text) (a : Re) (p : Place) : (Re.group n a).all p =
    (a.all p).map fun q => { q with groups := (n, between p q) :: q.groups } := rfl

theorem all_ch_eq (c : Char) (st : Bool) (r : Text) (g : List (Text × Text)) :
    (Re.ch c).all ⟨st, c :: r, g⟩ = [⟨false, r, g⟩] := by
  have := (charSet_single c c).2 rfl
  simp [Re.ch, Re.all, this]

/-- The way the ID is read. -/
theorem id_all (s : Text) :
    (Re.group t!"gnubgid" (.all' [.rep (.any idChars) 14 (some 14), .ch ':', .rep (.any idChars) 12 (some 12)])).all
        ⟨true, s, []⟩ =
      if (s.take 14).all IdChar ∧ s[14]? = some ':' ∧ 27 ≤ s.length ∧ ((s.drop 15).take 12).all IdChar then
        [⟨false, s.drop 27, [(t!"gnubgid", s.take 27)]⟩] else [] := by
  have hmem : (CharSet.mem ⟨false, idChars⟩) = IdChar := funext idChars_mem
  simp only [Re.all', Re.any, all_group_eq, all_seq_eq, rep_exact, hmem]
  by_cases h1 : 14 ≤ s.length ∧ (s.take 14).all IdChar
  · rw [if_pos h1]
    simp only [Bool.true_and, List.flatMap_cons, List.flatMap_nil, List.append_nil]
    by_cases h2 : s[14]? = some ':'
    · have hd : s.drop 14 = ':' :: s.drop 15 := by
        have hlt : 14 < s.length := by
          rcases Nat.lt_or_ge 14 s.length with h | h
          · exact h
          · rw [List.getElem?_eq_none h] at h2; cases h2
        rw [List.drop_eq_getElem_cons hlt]
        rw [List.getElem?_eq_getElem hlt] at h2
        injection h2 with h2
        rw [h2]
      simp only [hd, all_seq_eq, all_ch_eq, List.flatMap_cons, List.flatMap_nil, List.append_nil, rep_exact, hmem]
      by_cases h3 : 12 ≤ (s.drop 15).length ∧ ((s.drop 15).take 12).all IdChar
      · rw [if_pos h3]
        have hl : 27 ≤ s.length := by have := h3.1; rw [List.length_drop] at this; omega
        rw [if_pos ⟨h1.2, h2, hl, h3.2⟩]
        simp only [List.map_cons, List.map_nil, List.drop_drop, between, Bool.false_and]
        have hlen : s.length - (s.drop 27).length = 27 := by rw [List.length_drop]; omega
        simp only [Nat.reduceAdd, hlen]
      · rw [if_neg h3, if_neg]
        · rfl
        · rintro ⟨_, _, hl, ha⟩
          exact h3 ⟨by rw [List.length_drop]; omega, ha⟩
    · have hn : (Re.ch ':').all ⟨false, s.drop 14, []⟩ = [] := by
        refine all_set_nil ?_
        intro c hc
        rcases hm : CharSet.mem ⟨false, [(':', ':')]⟩ c with _ | _
        · rfl
        · rw [charSet_single] at hm; subst hm
          rw [List.head?_drop] at hc
          exact absurd hc h2
      simp only [show ((14 : Nat) == 0) = false from rfl, all_seq_eq, hn]
      rw [if_neg (fun h => h2 h.2.1)]; rfl
  · rw [if_neg h1, if_neg]
    · rfl
    · rintro ⟨ha, _, hl, _⟩
      exact h1 ⟨by omega, ha⟩

theorem orElse_some {v d : Text} (h : v ≠ []) : orElse (some v) d = v := by
  cases v with
  | nil => exact absurd rfl h
  | cons => rfl

theorem parse_id (s : Text) (h : (s.take 14).all IdChar ∧ s[14]? = some ':' ∧ 27 ≤ s.length ∧
      ((s.drop 15).take 12).all IdChar) :
    parseArgs s = some ⟨s.take 27, (readOptions (s.drop 27)).1, (readOptions (s.drop 27)).2.1,
      (readOptions (s.drop 27)).2.2.1, (readOptions (s.drop 27)).2.2.2⟩ := by
  have hid := id_all s
  rw [if_pos h] at hid
  generalize s.drop 27 = r at hid ⊢
  have hne : s.take 27 ≠ [] := by
    intro e
    have := congrArg List.length e
    rw [List.length_take, List.length_nil] at this
    omega
  generalize s.take 27 = id at hid hne ⊢
  have o1 := option_heads t!"css" t!"css=" letterChars AsciiLetter letterChars_mem (by decide) (by decide) r
    [(t!"gnubgid", id)]
  have key : ∃ q, Heads argRe ⟨true, s, []⟩ q ∧ groupOf q.groups t!"gnubgid" = some id ∧
      orElse (groupOf q.groups t!"css") t!"minimal" = (readOptions r).1 ∧
      orElse (groupOf q.groups t!"format") t!"png" = (readOptions r).2.1 ∧
      orElse (groupOf q.groups t!"width") t!"400" = (readOptions r).2.2.1 ∧
      orElse (groupOf q.groups t!"height") t!"300" = (readOptions r).2.2.2 := by
    have step1 : ∃ g1, Heads (optionRe t!"css" t!"css=" letterChars) ⟨false, r, [(t!"gnubgid", id)]⟩
        ⟨false, (optionOr t!"css=" AsciiLetter t!"minimal" r).2, g1⟩ ∧
        groupOf g1 t!"gnubgid" = some id ∧
        orElse (groupOf g1 t!"css") t!"minimal" = (optionOr t!"css=" AsciiLetter t!"minimal" r).1 ∧
        groupOf g1 t!"format" = none ∧ groupOf g1 t!"width" = none ∧ groupOf g1 t!"height" = none := by
      unfold optionOr
      cases hr : readOption t!"css=" AsciiLetter r with
      | none => rw [hr] at o1; exact ⟨_, o1, by simp [groupOf], by simp [groupOf, orElse], by simp [groupOf],
          by simp [groupOf], by simp [groupOf]⟩
      | some x =>
        obtain ⟨v, r'⟩ := x
        rw [hr] at o1
        exact ⟨_, o1, by simp [groupOf], by simp [groupOf, orElse_some (readOption_ne hr)], by simp [groupOf],
          by simp [groupOf], by simp [groupOf]⟩
    obtain ⟨g1, h1, a1, a2, a3, a4, a5⟩ := step1
    generalize hr1 : (optionOr t!"css=" AsciiLetter t!"minimal" r).2 = r1 at h1
    have o2 := option_heads t!"format" t!"format" letterChars AsciiLetter letterChars_mem (by decide) (by decide) r1 g1
    have step2 : ∃ g2, Heads (optionRe t!"format" t!"format" letterChars) ⟨false, r1, g1⟩
        ⟨false, (optionOr t!"format" AsciiLetter t!"png" r1).2, g2⟩ ∧
        groupOf g2 t!"gnubgid" = some id ∧
        orElse (groupOf g2 t!"css") t!"minimal" = (optionOr t!"css=" AsciiLetter t!"minimal" r).1 ∧
        orElse (groupOf g2 t!"format") t!"png" = (optionOr t!"format" AsciiLetter t!"png" r1).1 ∧
        groupOf g2 t!"width" = none ∧ groupOf g2 t!"height" = none := by
      unfold optionOr at a2 ⊢
      cases hr : readOption t!"format" AsciiLetter r1 with
      | none => rw [hr] at o2; exact ⟨_, o2, a1, a2, by rw [a3]; rfl, a4, a5⟩
      | some x =>
        obtain ⟨v, r'⟩ := x
        rw [hr] at o2
        exact ⟨_, o2, by simpa [groupOf] using a1, by simpa [groupOf] using a2,
          by simp [groupOf, orElse_some (readOption_ne hr)], by simpa [groupOf] using a4, by simpa [groupOf] using a5⟩
    obtain ⟨g2, h2, b1, b2, b3, b4, b5⟩ := step2
    generalize hr2 : (optionOr t!"format" AsciiLetter t!"png" r1).2 = r2 at h2
    have o3 := option_heads t!"width" t!"width" digits AsciiDigit digits_mem (by decide) (by decide) r2 g2
    have step3 : ∃ g3, Heads (optionRe t!"width" t!"width" digits) ⟨false, r2, g2⟩
        ⟨false, (optionOr t!"width" AsciiDigit t!"400" r2).2, g3⟩ ∧
        groupOf g3 t!"gnubgid" = some id ∧
        orElse (groupOf g3 t!"css") t!"minimal" = (optionOr t!"css=" AsciiLetter t!"minimal" r).1 ∧
        orElse (groupOf g3 t!"format") t!"png" = (optionOr t!"format" AsciiLetter t!"png" r1).1 ∧
        orElse (groupOf g3 t!"width") t!"400" = (optionOr t!"width" AsciiDigit t!"400" r2).1 ∧
        groupOf g3 t!"height" = none := by
      unfold optionOr at b2 b3 ⊢
      cases hr : readOption t!"width" AsciiDigit r2 with
      | none => rw [hr] at o3; exact ⟨_, o3, b1, b2, b3, by rw [b4]; rfl, b5⟩
      | some x =>
        obtain ⟨v, r'⟩ := x
        rw [hr] at o3
        exact ⟨_, o3, by simpa [groupOf] using b1, by simpa [groupOf] using b2, by simpa [groupOf] using b3,
          by simp [groupOf, orElse_some (readOption_ne hr)], by simpa [groupOf] using b5⟩
    obtain ⟨g3, h3, c1, c2, c3, c4, c5⟩ := step3
    generalize hr3 : (optionOr t!"width" AsciiDigit t!"400" r2).2 = r3 at h3
    have o4 := option_heads t!"height" t!"height" digits AsciiDigit digits_mem (by decide) (by decide) r3 g3
    have hro : readOptions r = ((optionOr t!"css=" AsciiLetter t!"minimal" r).1, (optionOr t!"format" AsciiLetter t!"png" r1).1,
        (optionOr t!"width" AsciiDigit t!"400" r2).1, (optionOr t!"height" AsciiDigit t!"300" r3).1) := by
      subst hr3 hr2 hr1; rfl
    rw [hro]
    have hh : ∀ q, Heads (optionRe t!"height" t!"height" digits) ⟨false, r3, g3⟩ q → Heads argRe ⟨true, s, []⟩ q :=
      fun q hq => heads_seq ⟨[], hid⟩ (heads_seq h1 (heads_seq h2 (heads_seq h3 hq)))
    unfold optionOr at c2 c3 c4 ⊢
    cases hr : readOption t!"height" AsciiDigit r3 with
    | none => rw [hr] at o4; exact ⟨_, hh _ o4, c1, c2, c3, c4, by rw [c5]; rfl⟩
    | some x =>
      obtain ⟨v, r'⟩ := x
      rw [hr] at o4
      exact ⟨_, hh _ o4, by simpa [groupOf] using c1, by simpa [groupOf] using c2, by simpa [groupOf] using c3,
        by simpa [groupOf] using c4, by simp [groupOf, orElse_some (readOption_ne hr)]⟩
  obtain ⟨q, ⟨t, hq⟩, k1, k2, k3, k4, k5⟩ := key
  unfold parseArgs
  rw [hq]
  simp only [k1, k2, k3, k4, k5]

theorem parse_none (s : Text) (h : ¬ ((s.take 14).all IdChar ∧ s[14]? = some ':' ∧ 27 ≤ s.length ∧
      ((s.drop 15).take 12).all IdChar)) : parseArgs s = none := by
  have hid := id_all s
  rw [if_neg h] at hid
  have : argRe.all ⟨true, s, []⟩ = [] := all_seq_nil hid
  unfold parseArgs
  rw [this]

/-- An ID at the beginning. -/
theorem id_take (s : Text) : ((s.take 14).all IdChar ∧ s[14]? = some ':' ∧ 27 ≤ s.length ∧
      ((s.drop 15).take 12).all IdChar) ↔ ∃ id r, IsId id ∧ s = id ++ r := by
  constructor
  · rintro ⟨h1, h2, h3, h4⟩
    refine ⟨s.take 14 ++ ':' :: (s.drop 15).take 12, s.drop 27, ⟨_, _, rfl, ?_, ?_, h1, h4⟩, ?_⟩
    · rw [List.length_take]; omega
    · rw [List.length_take, List.length_drop]; omega
    · have e1 : s = s.take 14 ++ s.drop 14 := (List.take_append_drop 14 s).symm
      have e2 : s.drop 14 = ':' :: s.drop 15 := by
        have hlt : 14 < s.length := by omega
        rw [List.drop_eq_getElem_cons hlt]
        rw [List.getElem?_eq_getElem hlt] at h2
        injection h2 with h2
        rw [h2]
      have e3 : s.drop 15 = (s.drop 15).take 12 ++ s.drop 27 := by
        have := (List.take_append_drop 12 (s.drop 15)).symm
        rwa [List.drop_drop] at this
      rw [List.append_assoc, List.cons_append, ← e3, ← e2, ← e1]
  · rintro ⟨id, r, ⟨p, m, rfl, hp, hm, hpa, hma⟩, rfl⟩
    have t1 : (p ++ ':' :: m ++ r).take 14 = p := by
      rw [List.append_assoc, List.take_append_of_le_length (by omega), List.take_of_length_le (by omega)]
    have t2 : (p ++ ':' :: m ++ r)[14]? = some ':' := by
      rw [List.append_assoc, List.getElem?_append_right (by omega), hp]; rfl
    have t3 : ((p ++ ':' :: m ++ r).drop 15).take 12 = m := by
      rw [List.append_assoc, List.drop_append, List.drop_of_length_le (by omega), hp]
      simp [← hm]
    refine ⟨by rw [t1]; exact hpa, t2, ?_, by rw [t3]; exact hma⟩
    simp only [List.length_append, List.length_cons]; omega

/-! ### Options as they are written -/

/-- The text ends or goes on with a comma. -/
def Begins (r : Text) : Prop := r = [] ∨ r.head? = some ','

theorem begins_write (words : Text) (n : Nat) (v : Option Text) : Begins (writeOption words n v) := by
  cases v <;> simp [Begins, writeOption]

theorem begins_append {a b : Text} (ha : Begins a) (hb : Begins b) : Begins (a ++ b) := by
  rcases ha with rfl | h
  · exact hb
  · right; rw [List.head?_append, h]; rfl

theorem dropWhile_blanks (n : Nat) (r : Text) (hr : r.head? ≠ some ' ') :
    (List.replicate n ' ' ++ r).dropWhile (· = ' ') = r := by
  induction n with
  | zero =>
    cases r with
    | nil => rfl
    | cons c r =>
      have : c ≠ ' ' := fun e => hr (by simp [e])
      simp [this]
  | succ n ih => simpa [List.replicate_succ] using ih

theorem takeWhile_all (ok : Char → Bool) (v r : Text) (hv : v.all ok) (hr : ∀ c, r.head? = some c → ok c = false) :
    (v ++ r).takeWhile ok = v ∧ (v ++ r).dropWhile ok = r := by
  induction v with
  | nil =>
    cases r with
    | nil => exact ⟨rfl, rfl⟩
    | cons c r => have := hr c rfl; simp [this]
  | cons c v ih =>
    simp only [List.all_cons, Bool.and_eq_true] at hv
    obtain ⟨i1, i2⟩ := ih hv.2
    simp only [List.cons_append, List.takeWhile_cons, List.dropWhile_cons, hv.1, if_true]
    exact ⟨by rw [i1], i2⟩

theorem option_written (words : Text) (ok : Char → Bool) (default : Text) (n : Nat) (v : Option Text)
    (hv : GoodValue ok v) (hw : words ≠ [] ∧ words.head? ≠ some ' ') (hc : ok ',' = false) (rest : Text)
    (hr : Begins rest) (hn : readOption words ok rest = none) :
    optionOr words ok default (writeOption words n v ++ rest) = (v.getD default, rest) := by
  cases v with
  | none => simp [optionOr, writeOption, hn]
  | some t =>
    obtain ⟨hne, hall⟩ := hv t rfl
    have hd : (List.replicate n ' ' ++ (words ++ (t ++ rest))).dropWhile (· = ' ') = words ++ (t ++ rest) := by
      apply dropWhile_blanks
      obtain ⟨h1, h2⟩ := hw
      cases words with
      | nil => exact absurd rfl h1
      | cons w ws => simpa using h2
    obtain ⟨t1, t2⟩ := takeWhile_all ok t rest hall (fun c hcr => by
      rcases hr with rfl | h
      · simp at hcr
      · rw [h] at hcr; injection hcr with e; rw [← e]; exact hc)
    have e : writeOption words n (some t) ++ rest = ',' :: (List.replicate n ' ' ++ (words ++ (t ++ rest))) := by
      simp [writeOption]
    rw [e]
    unfold optionOr readOption
    simp only [hd]
    rw [if_pos (List.prefix_append _ _)]
    simp only [List.drop_left, t1, t2, hne, if_false, Option.getD_some]

/-- Another option begins. -/
theorem other_option' (words : Text) (ok : Char → Bool) (words' v : Text) (n : Nat) {rest : Text}
    (hb : words' ≠ [] ∧ words'.head? ≠ some ' ') (hw : words ≠ []) (hne : words.head? ≠ words'.head?) :
    readOption words ok (writeOption words' n (some v) ++ rest) = none := by
  obtain ⟨w, ws, rfl⟩ : ∃ w ws, words = w :: ws := by
    cases words with
    | nil => exact absurd rfl hw
    | cons w ws => exact ⟨w, ws, rfl⟩
  obtain ⟨w', ws', rfl⟩ : ∃ w ws, words' = w :: ws := by
    cases words' with
    | nil => exact absurd rfl hb.1
    | cons w ws => exact ⟨w, ws, rfl⟩
  have e : writeOption (w' :: ws') n (some v) ++ rest = ',' :: (List.replicate n ' ' ++ (w' :: ws' ++ (v ++ rest))) := by
    simp [writeOption]
  rw [e]
  unfold readOption
  simp only
  rw [dropWhile_blanks n _ (by simpa using hb.2), if_neg]
  intro ⟨y, hy⟩
  simp only [List.cons_append, List.cons.injEq] at hy
  exact hne (by simp [hy.1])

theorem other_option (words : Text) (ok : Char → Bool) (words' : Text) (n : Nat) {v : Option Text}
    (hb : words' ≠ [] ∧ words'.head? ≠ some ' ') (hw : words ≠ []) (hne : words.head? ≠ words'.head?) :
    readOption words ok (writeOption words' n v) = none := by
  cases v with
  | none => rfl
  | some v =>
    have := other_option' words ok words' v n (rest := []) hb hw hne
    rwa [List.append_nil] at this

/-! ### Queries -/

theorem quote_chars (c : Char) (hc : c.toNat < 256) (r : Text) :
    unquote (quoteChar c ++ r) = c :: unquote r ∧ '&' ∉ quoteChar c ∧ '=' ∉ quoteChar c ∧ '"' ∉ quoteChar c := by
  have hsafe : ∀ n < 256, let c := Char.ofNat n
      (CharSet.mem ⟨false, [('a', 'z'), ('A', 'Z'), ('0', '9'), ('_', '_'), ('.', '.'), ('-', '-')]⟩ c = true →
        c ≠ '%' ∧ c ≠ '+' ∧ c ≠ '&' ∧ c ≠ '=' ∧ c ≠ '"') ∧
      (Char.ofNat (hexVal (hexDigit (c.toNat / 16)) * 16 + hexVal (hexDigit (c.toNat % 16))) = c) ∧
      (∀ x ∈ ['%', hexDigit (c.toNat / 16), hexDigit (c.toNat % 16)], x ≠ '&' ∧ x ≠ '=' ∧ x ≠ '"') := by
    decide +kernel
  have := hsafe c.toNat hc
  rw [Char.ofNat_toNat] at this
  obtain ⟨h1, h2, h3⟩ := this
  unfold quoteChar
  split
  · next hm =>
    obtain ⟨a, b, d, e, f⟩ := h1 hm
    refine ⟨?_, by simp [Ne.symm d], by simp [Ne.symm e], by simp [Ne.symm f]⟩
    show unquote (c :: r) = _
    rw [unquote.eq_def]
    split
    · simp_all
    · simp_all
    · simp_all
    · simp_all
  · split
    · next hs => subst hs; exact ⟨rfl, by decide, by decide, by decide⟩
    · refine ⟨?_, fun h => (h3 _ h).1 rfl, fun h => (h3 _ h).2.1 rfl, fun h => (h3 _ h).2.2 rfl⟩
      show unquote ('%' :: hexDigit (c.toNat / 16) :: hexDigit (c.toNat % 16) :: r) = _
      rw [unquote, h2]

theorem quote_spec (s : Text) (hs : Bytes s) :
    unquote (quotePlus s) = s ∧ '&' ∉ quotePlus s ∧ '=' ∉ quotePlus s ∧ '"' ∉ quotePlus s := by
  induction s with
  | nil => exact ⟨rfl, by simp [quotePlus], by simp [quotePlus], by simp [quotePlus]⟩
  | cons c s ih =>
    obtain ⟨h1, h2, h3, h4⟩ := quote_chars c (hs c (by simp)) (quotePlus s)
    obtain ⟨i1, i2, i3, i4⟩ := ih (fun x hx => hs x (by simp [hx]))
    have e : quotePlus (c :: s) = quoteChar c ++ quotePlus s := rfl
    rw [e, h1, i1]
    simp only [List.mem_append, not_or]
    exact ⟨trivial, ⟨h2, i2⟩, ⟨h3, i3⟩, ⟨h4, i4⟩⟩

theorem split_joinAmp (fs : List Text) (hne : fs ≠ []) (h : ∀ f ∈ fs, '&' ∉ f) : splitChar '&' (joinAmp fs) = fs := by
  fun_induction joinAmp fs with
  | case1 => exact absurd rfl hne
  | case2 f => exact splitChar_none _ _ (h f (by simp))
  | case3 f fs hfs ih =>
    rw [splitChar_append _ _ _ (h f (by simp)), ih (by intro e; exact hfs e)
      (fun g hg => h g (List.mem_cons_of_mem _ hg))]

theorem takeWhile_ne (k v : Text) (hk : '=' ∉ k) :
    (k ++ '=' :: v).takeWhile (· ≠ '=') = k ∧ (k ++ '=' :: v).dropWhile (· ≠ '=') = '=' :: v := by
  induction k with
  | nil => simp
  | cons c k ih =>
    have hc : c ≠ '=' := fun e => hk (by simp [e])
    have := ih (fun e => hk (by simp [e]))
    simp only [List.cons_append]
    rw [List.takeWhile_cons, List.dropWhile_cons]
    simp only [ne_eq, hc, not_false_eq_true, decide_true, if_true]
    exact ⟨by rw [this.1], this.2⟩

theorem readQuery_urlencode (items : List (Text × Text)) (hne : items ≠ [])
    (hb : ∀ x ∈ items, Bytes x.1 ∧ Bytes x.2) : readQuery (urlencode items) = items := by
  unfold readQuery urlencode
  rw [split_joinAmp]
  · rw [List.map_map]
    conv => rhs; rw [← List.map_id items]
    apply List.map_congr_left
    intro x hx
    obtain ⟨h1, h2⟩ := hb x hx
    obtain ⟨a1, a2, a3, _⟩ := quote_spec _ h1
    obtain ⟨b1, b2, b3, _⟩ := quote_spec _ h2
    obtain ⟨t1, t2⟩ := takeWhile_ne (quotePlus x.1) (quotePlus x.2) a3
    simp only [Function.comp, t1, t2, List.drop_one, List.tail_cons, a1, b1, id]
  · simpa using hne
  · intro f hf
    obtain ⟨x, hx, rfl⟩ := List.mem_map.1 hf
    obtain ⟨h1, h2⟩ := hb x hx
    have a := (quote_spec _ h1).2.1
    have b := (quote_spec _ h2).2.1
    simp only [List.mem_append, List.mem_cons, not_or]
    exact ⟨a, by decide, b⟩

theorem ascii_bytes {ok : Char → Bool} (hok : ∀ c, ok c = true → c.toNat < 256) {t : Text} (h : t.all ok) : Bytes t :=
  fun c hc => hok c (List.all_eq_true.1 h c hc)

theorem idChar_byte (c : Char) (h : IdChar c = true) : c.toNat < 256 := by
  simp only [IdChar, Bool.or_eq_true, Bool.and_eq_true, decide_eq_true_eq, beq_iff_eq] at h
  rcases h with (((h | h) | h) | h) | h
  · exact Nat.lt_of_le_of_lt (UInt32.le_iff_toNat_le.1 h.2) (by decide)
  · exact Nat.lt_of_le_of_lt (UInt32.le_iff_toNat_le.1 h.2) (by decide)
  · exact Nat.lt_of_le_of_lt (UInt32.le_iff_toNat_le.1 h.2) (by decide)
  · subst h; decide
  · subst h; decide

theorem letter_byte (c : Char) (h : AsciiLetter c = true) : c.toNat < 256 := by
  simp only [AsciiLetter, Bool.or_eq_true, Bool.and_eq_true, decide_eq_true_eq] at h
  rcases h with h | h
  · exact Nat.lt_of_le_of_lt (UInt32.le_iff_toNat_le.1 h.2) (by decide)
  · exact Nat.lt_of_le_of_lt (UInt32.le_iff_toNat_le.1 h.2) (by decide)

theorem digit_byte (c : Char) (h : AsciiDigit c = true) : c.toNat < 256 := by
  simp only [AsciiDigit, Bool.and_eq_true, decide_eq_true_eq] at h
  exact Nat.lt_of_le_of_lt (UInt32.le_iff_toNat_le.1 h.2) (by decide)

theorem readOption_all {words : Text} {ok : Char → Bool} {s v r : Text} (h : readOption words ok s = some (v, r)) :
    v.all ok := by
  unfold readOption at h
  split at h
  · simp only at h
    split at h
    · split at h
      · cases h
      · simp only [Option.some.injEq, Prod.mk.injEq] at h
        rw [← h.1]; exact List.all_takeWhile
    · cases h
  · cases h

theorem optionOr_bytes (words : Text) (ok : Char → Bool) (hok : ∀ c, ok c = true → c.toNat < 256) (d s : Text)
    (hd : Bytes d) : Bytes (optionOr words ok d s).1 := by
  unfold optionOr
  cases h : readOption words ok s with
  | none => exact hd
  | some x => exact ascii_bytes hok (readOption_all h)

theorem items_bytes (s : Text) (a : PicArgs) (h : parseArgs s = some a) (x : Text × Text) (hx : x ∈ a.items) :
    Bytes x.1 ∧ Bytes x.2 := by
  have hi := Classical.byContradiction fun hn => by
    have := parse_none s hn
    rw [this] at h
    cases h
  have hid := (id_take s).1 hi
  have hp := parse_id s hi
  rw [h] at hp
  injection hp with hp
  have hk : ∀ k ∈ [t!"gnubgid", t!"css", t!"format", t!"width", t!"height"], Bytes k := by
    unfold Bytes; decide
  have h1 : Bytes (s.take 27) := by
    obtain ⟨id, r, ⟨p, m, rfl, hpl, hml, hpa, hma⟩, rfl⟩ := hid
    have ht : (p ++ ':' :: m ++ r).take 27 = p ++ ':' :: m := by
      have : (p ++ ':' :: m).length = 27 := by simp only [List.length_append, List.length_cons]; omega
      rw [List.take_append_of_le_length (by omega), List.take_of_length_le (by omega)]
    rw [ht]
    intro c hc
    rcases List.mem_append.1 hc with hc | hc
    · exact ascii_bytes idChar_byte hpa c hc
    · rcases List.mem_cons.1 hc with rfl | hc
      · decide
      · exact ascii_bytes idChar_byte hma c hc
  have h2 := optionOr_bytes t!"css=" AsciiLetter letter_byte t!"minimal"
  have h3 := optionOr_bytes t!"format" AsciiLetter letter_byte t!"png"
  have h4 := optionOr_bytes t!"width" AsciiDigit digit_byte t!"400"
  have h5 := optionOr_bytes t!"height" AsciiDigit digit_byte t!"300"
  rw [hp] at hx
  simp only [PicArgs.items, List.mem_cons, List.not_mem_nil, or_false] at hx
  rcases hx with rfl | rfl | rfl | rfl | rfl
  · exact ⟨hk _ (by simp), h1⟩
  · exact ⟨hk _ (by simp), h2 _ (by unfold Bytes; decide)⟩
  · exact ⟨hk _ (by simp), h3 _ (by unfold Bytes; decide)⟩
  · exact ⟨hk _ (by simp), h4 _ (by unfold Bytes; decide)⟩
  · exact ⟨hk _ (by simp), h5 _ (by unfold Bytes; decide)⟩

theorem urlencode_noquote (items : List (Text × Text)) (hb : ∀ x ∈ items, Bytes x.1 ∧ Bytes x.2) :
    '"' ∉ urlencode items := by
  have hj : ∀ fs : List Text, (∀ f ∈ fs, '"' ∉ f) → '"' ∉ joinAmp fs := by
    intro fs
    fun_induction joinAmp fs with
    | case1 => simp
    | case2 f => intro h; exact h f (by simp)
    | case3 f fs hfs ih =>
      intro h
      simp only [List.mem_append, List.mem_cons, not_or]
      exact ⟨h f (by simp), by decide, ih fun g hg => h g (List.mem_cons_of_mem _ hg)⟩
  apply hj
  intro f hf
  obtain ⟨x, hx, rfl⟩ := List.mem_map.1 hf
  obtain ⟨h1, h2⟩ := hb x hx
  have a := (quote_spec _ h1).2.2.2
  have b := (quote_spec _ h2).2.2.2
  simp only [List.mem_append, List.mem_cons, not_or]
  exact ⟨a, by decide, b⟩

end Bglib.Doc
