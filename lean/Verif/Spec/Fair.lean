import Verif.Spec.Stat
import Verif.Spec.Knockout
import Mathlib.Logic.Equiv.Defs
/-
The words used in the statements about who wins the matches of a tournament (C102).
-/
namespace Bglib.Spec
open Classical

variable {κ : Type} [DecidableEq κ]

/-- The player entered under `k`, in or out. -/
def entrant (t : Tourney κ) (k : κ) : Option Player :=
  ((t.alive ++ t.dead).find? fun e => e.1 = k).map (·.2)

/-- Whether `k` is still in. -/
def isIn (t : Tourney κ) (k : κ) : Prop := k ∈ t.alive.map (·.1)

/-- `a` beats `b` when the random number is `coin`: it is `b` who has fewer lives after the match. -/
def Beats (t : Tourney κ) (a b : κ) (coin : ℝ) : Prop :=
  ∃ t' p p', t.meet a b coin = .ok t' ∧ entrant t b = some p ∧ entrant t' b = some p' ∧ p'.lives < p.lives

/-- For how many of the `n` random numbers `0, 1/n, …, (n-1)/n` it is `a` who beats `b`.  The numbers of
`random.random()` are these with `n = 2^53`, each as likely as the others. -/
noncomputable def wins (t : Tourney κ) (a b : κ) (n : Nat) : Nat :=
  ((List.range n).filter fun (k : Nat) => decide (Beats t a b ((k : ℝ) / (n : ℝ)))).length

/-- The luck with the players changing places: where it has `k`, this has `f k`.  The keys come in
ascending order, so what the other luck would be given has to be sorted. -/
def Luck.reseated (f : Equiv.Perm Nat) (x : Luck) : Luck where
  shuffle i l := (x.shuffle i ((l.map f.symm).mergeSort (· ≤ ·))).map f
  coins := x.coins

end Bglib.Spec
