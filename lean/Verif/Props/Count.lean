import Verif.Lemmas.Count
import Mathlib.SetTheory.Cardinal.Finite
/-
C26: the number of backgammon positions.
-/
namespace Bglib
open Spec

/-- **C26**: the sum of `BackgammonCombination(m)` over the number `m` of points one side holds is the
number of positions. -/
theorem C26_count : Nat.card {p : (Fin 26 → Nat) × (Fin 26 → Nat) // IsPosition p} =
    ((List.range 16).map backgammonCombination).sum := by
  rw [Nat.card_congr (Equiv.subtypeEquivRight (fun p => (mem_allPositions p).symm)),
    Nat.card_eq_fintype_card, Fintype.card_coe, card_allPositions]
  decide +kernel

/-- **C26**: it is the constant `WTN`. -/
theorem C26_WTN : Nat.card {p : (Fin 26 → Nat) × (Fin 26 → Nat) // IsPosition p} = WTN := by
  rw [C26_count]; decide +kernel

/-- **C26**: the version written with binomial coefficients only is the same function. -/
theorem C26_allC (m : Nat) (h : m ≤ 15) : backgammonCombinationAllC m = backgammonCombination m := by
  have : ∀ m ∈ List.range 16, backgammonCombinationAllC m = backgammonCombination m := by decide +kernel
  exact this m (by simp; omega)

/-- There are positions, e.g. both sides with all chequers on the bar. -/
example : IsPosition (fun i => if i = 24 then 15 else 0, fun i => if i = 24 then 15 else 0) := by
  refine ⟨by simp, by simp, fun i hi => Or.inl ?_⟩
  have : i ≠ 24 := by rintro rfl; simp at hi
  simp [this]

end Bglib
