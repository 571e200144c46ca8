import Mathlib.Data.Fintype.BigOperators
import Mathlib.SetTheory.Cardinal.Finite
/-
What a backgammon position is, for counting them (C26): for each side the number of chequers on 26
places - the 24 points, numbered alike for both sides, the bar (24) and home (25).
-/
namespace Bglib.Spec

/-- Fifteen chequers a side and no point held by both. -/
def IsPosition (p : (Fin 26 → Nat) × (Fin 26 → Nat)) : Prop :=
  (∑ i, p.1 i) = 15 ∧ (∑ i, p.2 i) = 15 ∧ ∀ i : Fin 26, i.val < 24 → p.1 i = 0 ∨ p.2 i = 0

end Bglib.Spec
