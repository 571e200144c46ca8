import Verif.Model.Util
import Verif.Lemmas.Text
/-
C15: point names and numbers convert without loss.
-/
namespace Bglib

/-- First character of a printed number is a digit or a sign, so it is none of the words. -/
theorem pyStr_ne_word {n : Int} {c : Char} {cs : Text} (h : digitVal c = none) (h' : c ≠ '-') :
    pyStr n ≠ c :: cs := by
  unfold pyStr
  split
  · intro e; cases e; exact h' rfl
  · intro e
    obtain ⟨d, hd, e2⟩ := decimal_digits (n := n.natAbs) (c := c) (by rw [e]; simp)
    rw [e2, digitVal_digitChar hd] at h; cases h

theorem pyStr_not_word (n : Int) :
    pyStr n ≠ ['y','o','u','r'] ++ tHome ∧ pyStr n ≠ ['h','i','s'] ++ tHome ∧
    pyStr n ≠ ['y','o','u','r'] ++ tBar ∧ pyStr n ≠ ['h','i','s'] ++ tBar ∧
    pyStr n ≠ ['b','a','r'] ∧ pyStr n ≠ ['o','f','f'] :=
  ⟨pyStr_ne_word (by decide) (by decide), pyStr_ne_word (by decide) (by decide),
   pyStr_ne_word (by decide) (by decide), pyStr_ne_word (by decide) (by decide),
   pyStr_ne_word (by decide) (by decide), pyStr_ne_word (by decide) (by decide)⟩

/-- **C15**, position names: for both players and every place of the board (-1 = home, 0..23 points,
24 = bar) the name converts back to the number. -/
theorem C15_position_roundtrip (n who : Int) (hw : who = 0 ∨ who = 1) (h1 : -1 ≤ n) (h2 : n ≤ 24) :
    ∃ p, positionNtop n who = .ok p ∧ positionPton p who = .ok n := by
  unfold positionNtop
  by_cases c1 : n < 0
  · obtain rfl : n = -1 := by omega
    rcases hw with rfl | rfl
    · exact ⟨['y','o','u','r'] ++ tHome, by decide, by decide⟩
    · exact ⟨['h','i','s'] ++ tHome, by decide, by decide⟩
  · rw [if_neg c1]
    by_cases c2 : n < 24
    · rw [if_pos ⟨by omega, c2⟩]
      rcases hw with rfl | rfl
      · refine ⟨pyStr (n + 1), by simp [YOU], ?_⟩
        obtain ⟨a, b, c, d, _⟩ := pyStr_not_word (n + 1)
        unfold positionPton
        rw [if_neg (not_or.2 ⟨a, b⟩), if_neg (not_or.2 ⟨c, d⟩), pyInt_pyStr]
        simp only []
        rw [if_pos (by omega), if_pos (by rfl)]; congr 1; omega
      · refine ⟨pyStr (24 - n), by simp [YOU, HIM], ?_⟩
        obtain ⟨a, b, c, d, _⟩ := pyStr_not_word (24 - n)
        unfold positionPton
        rw [if_neg (not_or.2 ⟨a, b⟩), if_neg (not_or.2 ⟨c, d⟩), pyInt_pyStr]
        simp only []
        rw [if_pos (by omega), if_neg (by decide)]; congr 1; omega
    · obtain rfl : n = 24 := by omega
      rcases hw with rfl | rfl
      · exact ⟨['y','o','u','r'] ++ tBar, by decide, by decide⟩
      · exact ⟨['h','i','s'] ++ tBar, by decide, by decide⟩

/-- **C15**, the other direction: a position name that is a canonical decimal, or one of the player's own
words, is what the number converts back to. -/
theorem C15_position_roundtrip_text (i who : Int) (hw : who = 0 ∨ who = 1) (h1 : 1 ≤ i) (h2 : i ≤ 24) :
    ∃ n, positionPton (pyStr i) who = .ok n ∧ 0 ≤ n ∧ n ≤ 23 ∧ positionNtop n who = .ok (pyStr i) := by
  obtain ⟨a, b, c, d, _⟩ := pyStr_not_word i
  unfold positionPton
  rw [if_neg (not_or.2 ⟨a, b⟩), if_neg (not_or.2 ⟨c, d⟩), pyInt_pyStr]
  simp only []
  rw [if_pos (by omega)]
  rcases hw with rfl | rfl
  · refine ⟨i - 1, by simp [YOU], by omega, by omega, ?_⟩
    unfold positionNtop
    rw [if_neg (by omega), if_pos (by omega), if_pos (by decide)]; congr 2; omega
  · refine ⟨24 - i, by simp [YOU], by omega, by omega, ?_⟩
    unfold positionNtop
    rw [if_neg (by omega), if_pos (by omega), if_neg (by decide), if_pos (by decide)]; congr 2; omega

/-- **C15**, errors: for a player, naming a number fails exactly beyond the bar, with `ValueError`;
every text is either one of the four words, or text of an integer 1..24, or `ValueError`. -/
theorem C15_position_errors (n who : Int) (p : Text) (hw : who = 0 ∨ who = 1) :
    (positionNtop n who = .error .valueError ↔ 24 < n) ∧
    ((∃ s, positionNtop n who = .ok s) ↔ n ≤ 24) ∧
    (positionPton p who = .error .valueError ↔
      p ∉ [['y','o','u','r'] ++ tHome, ['h','i','s'] ++ tHome, ['y','o','u','r'] ++ tBar, ['h','i','s'] ++ tBar]
      ∧ ∀ i, pyInt p = some i → ¬ (1 ≤ i ∧ i ≤ 24)) ∧
    ((∃ m, positionPton p who = .ok m ∧ -1 ≤ m ∧ m ≤ 24) ∨ positionPton p who = .error .valueError) := by
  have e1 : ∀ t, ∃ s, ownerPlus who t = .ok s := by
    intro t
    rcases hw with rfl | rfl <;> exact ⟨_, rfl⟩
  refine ⟨?_, ?_, ?_, ?_⟩
  · unfold positionNtop
    obtain ⟨s, hs⟩ := e1 tHome
    obtain ⟨s', hs'⟩ := e1 tBar
    rw [hs, hs']
    rcases hw with rfl | rfl <;> simp only [YOU, HIM] <;> (repeat' split) <;> simp_all <;> omega
  · unfold positionNtop
    obtain ⟨s, hs⟩ := e1 tHome
    obtain ⟨s', hs'⟩ := e1 tBar
    rw [hs, hs']
    rcases hw with rfl | rfl <;> simp only [YOU, HIM] <;> (repeat' split) <;> simp_all <;> omega
  · unfold positionPton
    simp only [List.mem_cons, List.not_mem_nil, or_false, not_or]
    by_cases a : p = ['y','o','u','r'] ++ tHome ∨ p = ['h','i','s'] ++ tHome
    · rw [if_pos a]; simp; grind
    · rw [if_neg a]
      by_cases b : p = ['y','o','u','r'] ++ tBar ∨ p = ['h','i','s'] ++ tBar
      · rw [if_pos b]; simp; grind
      · rw [if_neg b]
        simp only [not_or] at a b
        cases hi : pyInt p with
        | none => simp only [true_iff]; exact ⟨⟨a.1, a.2, b.1, b.2⟩, by simp⟩
        | some i =>
          simp only [Option.some.injEq]
          by_cases c : 0 < i ∧ i < 25
          · rw [if_pos c]
            constructor
            · intro h; split at h <;> simp at h
            · intro h; exact absurd ⟨by omega, by omega⟩ (h.2 i rfl)
          · rw [if_neg c]
            simp only [true_iff]
            exact ⟨⟨a.1, a.2, b.1, b.2⟩, by rintro j rfl; omega⟩
  · unfold positionPton
    repeat' split
    all_goals first | (right; rfl) | (left; refine ⟨_, rfl, ?_, ?_⟩ <;> omega)

/-- **C15**, when nobody is on action: points and what is beyond the bar are a `ValueError`, home and bar a
`TypeError` for the missing name of the owner (2, or -2 from the end), an `IndexError` outside of the names,
and otherwise the words of whoever the index finds. -/
theorem C15_nobody (n who : Int) (h0 : who ≠ 0) (h1 : who ≠ 1) :
    (0 ≤ n → n ≠ 24 → positionNtop n who = .error .valueError) ∧
    (n < 0 ∨ n = 24 →
      (who = 2 ∨ who = -2 → positionNtop n who = .error .typeError) ∧
      (who < -4 ∨ 3 < who → positionNtop n who = .error .indexError) ∧
      (who = 3 ∨ who = -1 → positionNtop n who =
        .ok (['c','e','n','t','e','r'] ++ if n < 0 then tHome else tBar))) := by
  constructor
  · intro a b
    unfold positionNtop
    rw [if_neg (by omega)]
    by_cases c : n < 24
    · rw [if_pos ⟨a, c⟩, if_neg (by simpa [YOU] using h0), if_neg (by simpa [HIM] using h1)]
    · rw [if_neg (by omega), if_neg b]
  · intro hn
    have key : positionNtop n who = ownerPlus who (if n < 0 then tHome else tBar) := by
      unfold positionNtop
      rcases hn with c | rfl
      · rw [if_pos c, if_pos c]
      · rfl
    rw [key]
    refine ⟨?_, ?_, ?_⟩
    · rintro (rfl | rfl) <;> rfl
    · intro hw
      have : pyGet ownerString who = .error .indexError := by
        have : pyIdx ownerString.length who = none := by
          show pyIdx 4 who = none
          unfold pyIdx
          rcases hw with hw | hw
          · rw [if_neg (by omega), if_neg (by omega)]
          · rw [if_pos (by omega), if_neg (by omega)]
        simp [pyGet, this]
      simp [ownerPlus, this, bind, Except.bind]
    · rintro (rfl | rfl) <;> rfl

/-- Not vacuous: the names when nobody is on action. -/
example : positionNtop 3 2 = .error .valueError ∧ positionNtop 24 2 = .error .typeError ∧
    positionNtop (-1) 3 = .ok ['c','e','n','t','e','r',' ','h','o','m','e'] := by decide

/-- **C15**, move notation: every place (-1 = off, 0..23, 24 = bar) converts to text and back. -/
theorem C15_move_roundtrip (n : Int) (h1 : -1 ≤ n) (h2 : n ≤ 24) :
    ∃ p, moveNtop n = .ok p ∧ movePton p = .ok n := by
  unfold moveNtop
  by_cases c1 : n < 0
  · obtain rfl : n = -1 := by omega
    exact ⟨_, rfl, by decide⟩
  · rw [if_neg c1]
    by_cases c2 : n < 24
    · rw [if_pos ⟨by omega, c2⟩]
      refine ⟨_, rfl, ?_⟩
      obtain ⟨_, _, _, _, a, b⟩ := pyStr_not_word (n + 1)
      unfold movePton
      rw [if_neg a, if_neg b, pyInt_pyStr]
      simp only []
      rw [if_pos (by omega)]; congr 1; omega
    · obtain rfl : n = 24 := by omega
      exact ⟨_, rfl, by decide⟩

/-- **C15**, errors of move notation: numbering fails exactly beyond the bar; a text is accepted exactly
if it is `bar`, `off` or the text of an integer 0..25. -/
theorem C15_move_errors (n : Int) (p : Text) :
    (moveNtop n = .error .valueError ↔ 24 < n) ∧
    (movePton p = .error .valueError ↔
      p ≠ ['b','a','r'] ∧ p ≠ ['o','f','f'] ∧ ∀ i, pyInt p = some i → ¬ (0 ≤ i ∧ i ≤ 25)) ∧
    ((∃ m, movePton p = .ok m ∧ -1 ≤ m ∧ m ≤ 24) ∨ movePton p = .error .valueError) := by
  refine ⟨?_, ?_, ?_⟩
  · unfold moveNtop; repeat' split
    all_goals simp <;> omega
  · unfold movePton
    by_cases a : p = ['b','a','r']
    · simp [a]
    · by_cases b : p = ['o','f','f']
      · simp [b]
      · rw [if_neg a, if_neg b]
        cases hi : pyInt p with
        | none => simp [a, b]
        | some i =>
          simp only [Option.some.injEq]
          by_cases c : 0 ≤ i ∧ i ≤ 25
          · rw [if_pos c]
            simp only [reduceCtorEq, false_iff, not_and]
            intro _ _ h; exact h i rfl c.1 c.2
          · rw [if_neg c]
            simp only [true_iff]
            exact ⟨a, b, by rintro j rfl; exact c⟩
  · unfold movePton
    repeat' split
    all_goals first | (right; rfl) | (left; refine ⟨_, rfl, ?_, ?_⟩ <;> omega)

/-- C15, disagreement with "mutually inverse": `move_pton` is not injective; `off` and `0`, and `bar`
and `25`, are aliases (util.py:61-62 calls this "ugh"). -/
theorem C15_move_aliases :
    movePton ['o','f','f'] = .ok (-1) ∧ movePton ['0'] = .ok (-1) ∧
    movePton ['b','a','r'] = .ok 24 ∧ movePton ['2','5'] = .ok 24 ∧
    moveNtop (-1) = .ok ['o','f','f'] := by decide

example : positionNtop 5 1 = .ok ['1','9'] ∧ positionPton ['1','9'] 1 = .ok 5 ∧
    movePton [' ','7','\n'] = .ok 6 ∧ movePton ['2','6'] = .error .valueError := by decide

/-- **C15**, the words: home and bar are called so, with the player's name in positions and without in moves. -/
theorem C15_words :
    positionNtop (-1) YOU = .ok ['y','o','u','r',' ','h','o','m','e'] ∧ positionNtop (-1) HIM = .ok ['h','i','s',' ','h','o','m','e'] ∧
    positionNtop 24 YOU = .ok ['y','o','u','r',' ','b','a','r'] ∧ positionNtop 24 HIM = .ok ['h','i','s',' ','b','a','r'] ∧
    moveNtop (-1) = .ok ['o','f','f'] ∧ moveNtop 24 = .ok ['b','a','r'] := by decide

end Bglib
