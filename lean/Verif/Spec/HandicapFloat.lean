import Verif.Model.HandicapFloat
import Verif.Spec.RatingFloat
/-
What is assumed of the C library for the handicaps (C116).
-/
namespace Bglib.Spec
open Bglib Flt

/-- A rational that is a float. -/
def IsFloat (x : ℚ) : Prop := Img.fl x = x

/-- `x ** n` for chances `x`: larger chances give larger powers; powers of one half are exact while they fit
into a float; the others err by at most one unit in the last place, which for very small ones is the smallest
float; far too small ones are zero. -/
structure GoodPow (m : PowLib) : Prop where
  good : GoodLib m.toMathLib
  pow_nonneg : ∀ (x : ℚ) (n : Nat), 0 < x → 0 ≤ m.pow x n
  pow_mono : ∀ (x y : ℚ) (n : Nat), 0 < x → x ≤ y → y ≤ 1 → m.pow x n ≤ m.pow y n
  pow_half : ∀ n : Nat, n ≤ 1022 → m.pow (1 / 2) n = (1 / 2) ^ n
  pow_near : ∀ (x : ℚ) (n : Nat), 0 < x → x ≤ 1 → |m.pow x n - x ^ n| ≤ x ^ n / 2 ^ 52 + 1 / 2 ^ 1074
  pow_small : ∀ (x : ℚ) (n : Nat), 0 < x → x ^ n < 1 / 2 ^ 1075 → m.pow x n = 0

end Bglib.Spec
