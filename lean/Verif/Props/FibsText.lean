import Verif.Lemmas.FibsText
/-
C65: the helpers for FIBS messages give what the message says.
-/
namespace Bglib
open Spec

/-- The dice of a message about a roll. -/
theorem C65_dice (name : Text) (hn : PlayerName name) (a b : Nat) (ha : 1 ≤ a ∧ a ≤ 6) (hb : 1 ≤ b ∧ b ≤ 6) :
    getDice (rollsMessage name a b) = .ok ((a : Int), (b : Int)) := by
  have hd : ∀ a : Nat, 1 ≤ a ∧ a ≤ 6 → ∃ c, decimal a = [c] ∧ CharSet.mem ⟨false, [('1', '6')]⟩ c = true := by
    rintro a ⟨h1, h2⟩
    have : a = 1 ∨ a = 2 ∨ a = 3 ∨ a = 4 ∨ a = 5 ∨ a = 6 := by omega
    rcases this with rfl | rfl | rfl | rfl | rfl | rfl
    · exact ⟨'1', by decide⟩
    · exact ⟨'2', by decide⟩
    · exact ⟨'3', by decide⟩
    · exact ⟨'4', by decide⟩
    · exact ⟨'5', by decide⟩
    · exact ⟨'6', by decide⟩
  obtain ⟨c, hc, hcm⟩ := hd a ha
  obtain ⟨d, hd, hdm⟩ := hd b hb
  have e : findall dieRe (rollsMessage name a b) = [decimal a, decimal b] := by
    have hf : Finds dieRe (name ++ (t!" rolls " ++ (c :: (t!" and " ++ (d :: t!".")))) ) [[c], [d]] :=
      findsSet_skip (fun x hx => name_not_die (hn.2 x hx)) (findsSet_skip (by decide) (findsSet_take hcm
        (findsSet_skip (by decide) (findsSet_take hdm (findsSet_skip (u := t!".") (r := []) (by decide)
          (findsSet_nil _))))))
    rw [hc, hd, ← finds_findall hf]
    simp [rollsMessage, hc, hd]
  simp only [getDice, e, toInt_decimal, bind, Except.bind, pure, Except.pure]

/-- The helper succeeds exactly for texts with two of the digits 1 to 6, wherever they are. -/
theorem C65_dice_iff (got : Text) :
    (∃ r, getDice got = .ok r) ↔ (got.filter fun c => '1' ≤ c ∧ c ≤ '6').length = 2 := by
  have e := finds_findall (findsSet_filter ⟨false, [('1', '6')]⟩ got)
  have ef : got.filter (CharSet.mem ⟨false, [('1', '6')]⟩) = got.filter fun c => '1' ≤ c ∧ c ≤ '6' := by
    apply List.filter_congr
    intro c _
    simp [CharSet.mem]
  rw [ef] at e
  have hi : ∀ c, c ∈ got.filter (fun c => '1' ≤ c ∧ c ≤ '6') → ∃ n, toInt [c] = .ok n := by
    intro c hc
    have hc := (List.mem_filter.1 hc).2
    simp only [decide_eq_true_eq] at hc
    obtain ⟨h1, h2⟩ := hc
    have h9 : '0' ≤ c ∧ c ≤ '9' := ⟨Char.le_trans (by decide) h1, Char.le_trans h2 (by decide)⟩
    have hs : isSpace c = false := by
      rcases hs : isSpace c with _ | _
      · rfl
      · simp only [isSpace, Bool.or_eq_true, decide_eq_true_eq] at hs
        rcases hs with ((((rfl | rfl) | rfl) | rfl) | rfl) | rfl <;> exact absurd h9.1 (by decide)
    have hm : c ≠ '-' := by rintro rfl; exact absurd h9.1 (by decide)
    have hp : c ≠ '+' := by rintro rfl; exact absurd h9.1 (by decide)
    refine ⟨((c.toNat - 48 : Nat) : Int), ?_⟩
    have hd : digitVal c = some (c.toNat - 48) := by rw [digitVal, if_pos h9]
    have hr : readNat [c] = some (c.toNat - 48) := by simp [readNat, readDigits, hd]
    have : pyInt [c] = some ((c.toNat - 48 : Nat) : Int) := by
      unfold pyInt
      rw [List.dropWhile_cons_of_neg (by simp [hs])]
      split
      · next h => cases h; exact absurd rfl hm
      · next h => cases h; exact absurd rfl hp
      · rw [hr]; rfl
    rw [toInt, this]
  generalize hl : (got.filter fun c => '1' ≤ c ∧ c ≤ '6') = l at *
  unfold getDice
  rw [show findall dieRe got = _ from e]
  match l with
  | [] => simp
  | [_] => simp
  | [a, b] =>
    obtain ⟨n, hn⟩ := hi a (by simp)
    obtain ⟨m, hm⟩ := hi b (by simp)
    simp [hn, hm, bind, Except.bind, pure, Except.pure]
  | _ :: _ :: _ :: _ => simp

/-- The name at the beginning of a message, and none if the message does not begin with one. -/
theorem C65_name (name rest : Text) (hn : ∀ c ∈ name, NameLetter c) (hr : ∀ c, rest.head? = some c → ¬ NameLetter c) :
    getName (name ++ rest) = if name = [] then none else some name := by
  have hs : Stops ⟨false, [('a', 'z'), ('A', 'Z'), ('_', '_'), ('<', '<'), ('>', '>')]⟩ rest := by
    intro c hc
    rcases h : CharSet.mem _ c with _ | _
    · rfl
    · exact absurd (name_mem.1 h) (hr c hc)
  by_cases h : name = []
  · subst h
    have : nameRe.all ⟨true, rest, []⟩ = [] := by
      have := all_plus_nil (st := true) (g := []) hs
      rw [nameRe, Re.all, Re.all, if_pos rfl, List.flatMap_singleton]
      exact this
    simp [getName, this]
  · have hh : Heads nameRe ⟨true, name ++ rest, []⟩ ⟨false, rest, []⟩ :=
      heads_seq (heads_bol _ _) (heads_plus hs name h (fun c hc => name_mem.2 (hn c hc)) _ _)
    obtain ⟨t, ht⟩ := hh
    have hb : between ⟨true, name ++ rest, []⟩ ⟨false, rest, []⟩ = name := between_eq rfl
    simp only [getName, ht, hb, if_neg h]

/-- The scores of a message about the start of a match. -/
theorem C65_match (y h l : Nat) : getMatchScores (scoreMessage y h l) = .ok ((y : Int), (h : Int), (l : Int)) := by
  have e : findall numberRe (scoreMessage y h l) = [decimal y, decimal h, decimal l] := by
    have hf : Finds numberRe (t!"Score is " ++ (decimal y ++ (t!"-" ++ (decimal h ++ (t!" in a " ++ (decimal l ++
        (t!" point match." ++ []))))))) [decimal y, decimal h, decimal l] :=
      findsPlus_skip (by decide) (findsPlus_take (decimal_ne_nil _) (decimal_mem _) (stops_head (by decide))
        (findsPlus_skip (by decide) (findsPlus_take (decimal_ne_nil _) (decimal_mem _) (stops_head (by decide))
          (findsPlus_skip (by decide) (findsPlus_take (decimal_ne_nil _) (decimal_mem _) (stops_head (by decide))
            (findsPlus_skip (by decide) (findsPlus_nil _)))))))
    rw [← finds_findall hf]
    simp [scoreMessage]
  simp only [getMatchScores, e, toInt_decimal, bind, Except.bind, pure, Except.pure]

/-- The points of an offered resignation. -/
theorem C65_resign (name : Text) (hn : PlayerName name) (n : Nat) : getResignScore (resignMessage name n) = .ok (n : Int) := by
  have e : findall numberRe (resignMessage name n) = [decimal n] := by
    have hf : Finds numberRe (name ++ (t!" wants to resign. You will win " ++ (decimal n ++
        (t!" points. Type 'accept' or 'reject'." ++ [])))) [decimal n] :=
      findsPlus_skip (fun x hx => name_not_digit (hn.2 x hx)) (findsPlus_skip (by decide)
        (findsPlus_take (decimal_ne_nil _) (decimal_mem _) (stops_head (by decide))
          (findsPlus_skip (by decide) (findsPlus_nil _))))
    rw [← finds_findall hf]
    simp [resignMessage]
  simp only [getResignScore, e, toInt_decimal]

/-- No name is ever found by `get_taker_name`. -/
theorem C65_false_taker (got : Text) : getTakerName got = none := by
  unfold getTakerName
  split
  · next q t h =>
    have hq : q ∈ nameRe.all ⟨true, got, []⟩ := by rw [h]; simp
    obtain ⟨r, h1, h2⟩ := mem_seq hq
    obtain ⟨_, rfl⟩ := mem_bol h1
    obtain ⟨_, _, _, hg, _⟩ := mem_plus_set h2
    rw [hg]
    rfl
  · rfl

/-- `get_move` and `get_score` fail for every message. -/
theorem C65_false_move (got : Text) (who : Int) : getMove got who = .error .nameError ∧ getScore got = .error .typeError :=
  ⟨rfl, rfl⟩

example : getDice (rollsMessage t!"nori" 3 5) = .ok (3, 5) :=
  C65_dice _ ⟨by simp, by simp [NameLetter]⟩ 3 5 (by decide) (by decide)
example : rollsMessage t!"nori" 3 5 = t!"nori rolls 3 and 5." := by decide
example : getDice t!"nori3 rolls 3 and 5." = .error .valueError := by decide
example : getName t!"nori wants to resign." = some t!"nori" := by decide
example : scoreMessage 1 12 21 = t!"Score is 1-12 in a 21 point match." := by decide
example : resignMessage t!"nori" 2 = t!"nori wants to resign. You will win 2 points. Type 'accept' or 'reject'." := by decide

end Bglib
