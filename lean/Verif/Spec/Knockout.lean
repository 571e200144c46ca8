import Verif.Model.Knockout
import Verif.Spec.Stat
/-
The words used in the statements about `3knockout.py` (C87).
-/
namespace Bglib.Spec

/-- The most rounds players with `d` defeats to take between them can play, three each at most: while more
than one is in, a round costs a defeat for every pair, and there are at least `d / 3` players. -/
def most (d : Nat) : Nat :=
  if d ≤ 1 then 0 else 1 + most (d - max 1 ((d + 2) / 3 / 2))
termination_by d
decreasing_by omega

/-- The number of rounds `c` of a tournament of `n` players is possible: nobody is out before the third
round, and from then on at most half of the players drop out in each. -/
def Possible (n c : Nat) : Prop := 2 ≤ c ∧ n ≤ 2 ^ (c - 2) ∧ c ≤ most (3 * n)

/-- The luck is that of `random`: the shuffles give permutations. -/
def Luck.Fair (x : Luck) : Prop := ∀ i l, (x.shuffle i l).Perm l

/-- How often `c` was counted. -/
def times (d : List (Nat × Nat)) (c : Nat) : Nat := ((d.filter (fun e => e.1 = c)).map (·.2)).sum

/-- All rounds counted together. -/
def counted (d : List (Nat × Nat)) : Nat := (d.map (fun e => e.1 * e.2)).sum

end Bglib.Spec
