import Verif.Spec.Rules
/-
When a chequer that both dice together could bear off is overlooked (C47).
-/
namespace Bglib.Spec
open Bglib

/-- The larger die `D` can be played from `src` and does not bear off; the smaller die `d` is then more than
needed, and another chequer stands behind. -/
def OffOverlooked (mine theirs : List Int) (D d src : Int) : Prop :=
  (∃ hit, LegalMove mine theirs D src (src - D) hit) ∧ src + 1 < D + d ∧
  ∃ i : Nat, src - D < i ∧ i < 25 ∧ 1 ≤ moverAfter mine src (src - D) i

end Bglib.Spec
