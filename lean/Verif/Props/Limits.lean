import Verif.Model.Editor
import Verif.Model.Bearoff
/-
C21, C25: what is raised for those who are no players, and for more chequers than the table of numbers has.
-/
namespace Bglib

/-- What `new[who]` and `get_opp(who)` raise: a list of two has places -2 to 1, and only 0 and 1 are players. -/
def Spec.strangerError (who : Int) : PyErr := if -2 ≤ who ∧ who < 2 then .valueError else .indexError

/-- **C21**: if somebody is asked who is no player, a dropped double or an accepted resignation raises, and nobody gets points;
but the game counts as ended. -/
theorem C21_strangers (b : Board) (who : Int) (h : who ≠ 0 ∧ who ≠ 1) :
    (b.isCubeTakeOrPass who = true →
      (b.drop who).err = some (Spec.strangerError who) ∧ (b.drop who).st = { b with gameState := DOUBLED_OUT }) ∧
    (b.isToAcceptResign who = true →
      (b.acceptResign who).err = some (Spec.strangerError who) ∧ (b.acceptResign who).st = { b with gameState := RESIGNED }) := by
  have key : ∀ x y, b.newScore who x y = .error (Spec.strangerError who) := by
    intro x y
    have hy : who ≠ YOU := by unfold YOU; omega
    have hh : who ≠ HIM := by unfold HIM; omega
    unfold Board.newScore Spec.strangerError
    rw [if_neg hy, if_neg hh]
    by_cases h2 : who = -1 ∨ who = -2
    · rw [if_pos h2, if_pos (by omega)]
    · rw [if_neg h2, if_neg (by omega)]
  refine ⟨fun hc => ?_, fun hc => ?_⟩
  · unfold Board.drop
    rw [if_pos hc]
    simp only [key]
    exact ⟨trivial, trivial⟩
  · unfold Board.acceptResign
    rw [if_pos hc]
    simp only [key]
    exact ⟨trivial, trivial⟩

/-- **C25**: a position on six points has a number if it has at most 16 chequers, and otherwise there is a KeyError. -/
theorem C25_limit (H : HashPair) (t : List Nat) (h : t.length = 6) :
    (countChequers t ≤ 16 → ∃ k, noriT2k H t = .ok k) ∧ (16 < countChequers t → noriT2k H t = .error .keyError) := by
  unfold noriT2k
  rw [if_neg (by simpa using h)]
  refine ⟨fun hc => ?_, fun hc => ?_⟩
  · have : sigmaGet ((countChequers t : Int) - 1) = .ok (sigmaD ((countChequers t : Int) - 1 + 1).toNat) := by
      unfold sigmaGet; rw [if_pos (by omega)]
    simp only [this, bind, Except.bind]
    exact ⟨_, rfl⟩
  · have : sigmaGet ((countChequers t : Int) - 1) = .error .keyError := by
      unfold sigmaGet; rw [if_neg (by omega)]
    simp only [this, bind, Except.bind]

/- Non-vacuity. -/
example : ∃ b : Board, b.isCubeTakeOrPass (-2) = true := ⟨{ doubled := true, onInnerAction := -2 }, by decide⟩
example : countChequers [17, 0, 0, 0, 0, 0] = 17 ∧ countChequers [3, 3, 3, 3, 2, 2] = 16 := by decide

end Bglib
