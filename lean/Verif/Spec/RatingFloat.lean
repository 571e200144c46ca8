import Verif.Model.RatingFloat
import Verif.Spec.Stat
/-
What is assumed of the C library for the rating formulas (C112).
-/
namespace Bglib.Spec
open Bglib Flt

/-- `sqrt` and `pow` err by at most one unit in the last place and never answer in the wrong order; the powers
of ten that fit into a float are answered, those that do not are refused; ten to the zero is one. -/
structure GoodLib (m : MathLib) : Prop where
  sqrt_mono : ∀ a b : Nat, a ≤ b → m.sqrt a ≤ m.sqrt b
  sqrt_near : ∀ a : Nat, |(m.sqrt a : ℝ) - Real.sqrt a| ≤ Real.sqrt a / 2 ^ 52
  pow_zero : m.pow10 0 = some 1
  pow_mono : ∀ (x y q : ℚ), 0 ≤ x → x ≤ y → m.pow10 y = some q → ∃ p, m.pow10 x = some p ∧ p ≤ q
  pow_near : ∀ (x p : ℚ), 0 ≤ x → m.pow10 x = some p → |(p : ℝ) - (10 : ℝ) ^ (x : ℝ)| ≤ (10 : ℝ) ^ (x : ℝ) / 2 ^ 52
  pow_small : ∀ x : ℚ, 0 ≤ x → x ≤ 308 → m.pow10 x ≠ none
  pow_large : ∀ x : ℚ, 309 ≤ x → m.pow10 x = none

end Bglib.Spec
