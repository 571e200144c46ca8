import Verif.Spec.Actions
import Verif.Props.Score
/-
C50: each game action hands the decision to the right player and changes nothing else.
-/
namespace Bglib
open Spec

/-- **C50**, doubling: an accepted double comes from the player on turn, who is not waiting for an
answer, and the opponent has to answer. -/
theorem C50_double (b : Board) (who : Int) (ht : TurnsOk b) (h : (b.double who).err = none) :
    b.onAction = who ∧ b.onInnerAction = who ∧ b.rolled = (0, 0) ∧ b.gameState = 1 ∧
    (b.double who).st = after b (.double who) := by
  obtain ⟨h1, h2⟩ := ht
  unfold Board.double at h ⊢
  cases hl : b.isLegalToDouble who with
  | error e => rw [hl] at h; simp at h
  | ok r =>
    cases r with
    | false => rw [hl] at h; simp at h
    | true =>
      have key : b.onAction = who ∧ b.onInnerAction = who ∧ b.rolled = (0, 0) ∧ b.gameState = 1 := by
        unfold Board.isLegalToDouble at hl
        simp only [YOU, HIM, ON_GOING, MONEY_GAME] at hl
        grind (splits := 25)
      have hw : who = 0 ∨ who = 1 := by rw [← key.1]; exact h1
      refine ⟨key.1, key.2.1, key.2.2.1, key.2.2.2, ?_⟩
      rcases hw with rfl | rfl <;> simp [getOpp, HIM, YOU, after, other]

/-- **C50**, the other actions: exactly when in order they are accepted, and then the board afterwards
is the one described by `after`; otherwise they are refused and nothing changes. -/
theorem C50_action (b : Board) (e : Edit) (ht : TurnsOk b)
    (he : match e with | .take _ | .drop _ | .offerResign _ _ | .acceptResign _ | .rejectResign _
                       | .pickupDice => True | _ => False) :
    (inOrder b e → e.run b = ⟨after b e, none⟩) ∧
    (¬ inOrder b e → (e.run b).st = b ∧ (e.run b).err ≠ none) := by
  obtain ⟨h1, h2⟩ := ht
  cases e with
  | take w =>
    simp only [inOrder, Edit.run, Board.take, Board.isCubeTakeOrPass, after, Bool.and_eq_true,
      decide_eq_true_eq, and_assoc]
    constructor <;> intro h
    · rw [if_pos h]
    · rw [if_neg h]; simp
  | drop w =>
    simp only [inOrder, Edit.run, Board.drop, Board.isCubeTakeOrPass, after, Bool.and_eq_true,
      decide_eq_true_eq, and_assoc]
    constructor <;> intro h
    · rw [if_pos h]
      have hw : w = 0 ∨ w = 1 := by rw [← h.2.2]; exact h2
      rcases hw with rfl | rfl <;> simp [Board.newScore, YOU, HIM, DOUBLED_OUT]
    · rw [if_neg h]; simp
  | offerResign w k =>
    simp only [inOrder, Edit.run, Board.offerResign, Board.isLegalToResign, after, Bool.and_eq_true,
      decide_eq_true_eq]
    have hk : (k = RESIGN_SINGLE ∨ k = RESIGN_GAMMON ∨ k = RESIGN_BACKGAMMON) ↔ (k = 1 ∨ k = 2 ∨ k = 3) :=
      Iff.rfl
    constructor <;> intro h
    · rw [if_pos ⟨h.1, h.2.1⟩, if_pos (hk.2 h.2.2)]
      have hw : w = 0 ∨ w = 1 := by rw [← h.1]; exact h1
      rcases hw with rfl | rfl <;> simp [getOpp, YOU, HIM, other]
    · by_cases c : b.onAction = w ∧ b.onInnerAction = w
      · rw [if_pos c, if_neg (fun hk' => h ⟨c.1, c.2, hk.1 hk'⟩)]; simp
      · rw [if_neg c]; simp
  | acceptResign w =>
    simp only [inOrder, Edit.run, Board.acceptResign, isToAcceptResign_iff, after, and_assoc]
    constructor <;> intro h
    · rw [if_pos h]
      have hw : w = 0 ∨ w = 1 := by rw [← h.2.2]; exact h2
      rcases hw with rfl | rfl <;> simp [Board.newScore, YOU, HIM, RESIGNED]
    · rw [if_neg h]; simp
  | rejectResign w =>
    simp only [inOrder, Edit.run, Board.rejectResign, isToAcceptResign_iff, after, and_assoc]
    constructor <;> intro h
    · rw [if_pos h]
      have hw : w = 0 ∨ w = 1 := by rw [← h.2.2]; exact h2
      rcases hw with rfl | rfl <;> simp [getOpp, YOU, HIM, RESIGN_NONE, other]
    · rw [if_neg h]; simp
  | pickupDice =>
    simp only [inOrder, Edit.run, Board.pickupDice, after, not_true, false_implies, and_true]
    intro _
    rcases h1 with h1 | h1 <;> rcases h2 with h2 | h2 <;> simp [getOpp, YOU, HIM, other, h1, h2]
  | _ => simp at he

/-- **C50**: a refused double changes nothing. -/
theorem C50_double_refused (b : Board) (who : Int) (h : (b.double who).err ≠ none) :
    (b.double who).st = b := by
  unfold Board.double at h ⊢
  repeat' split
  all_goals simp_all

/-- You resign a gammon on move, he refuses, you pick up the dice: it is his turn. -/
example : TurnsOk { gameState := 1, rolled := (3, 1) } ∧
    inOrder { gameState := 1, rolled := (3, 1) } (.offerResign 0 2) ∧
    playEdits { gameState := 1, rolled := (3, 1) } [.offerResign 0 2, .rejectResign 1, .pickupDice] =
      { gameState := 1, onAction := 1, onInnerAction := 1 } :=
  ⟨⟨Or.inl rfl, Or.inl rfl⟩, ⟨rfl, rfl, by decide⟩, by decide⟩

example : (({ gameState := 1 } : Board).double 0).err = none := by decide

end Bglib
