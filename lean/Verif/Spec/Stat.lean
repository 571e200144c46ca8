import Verif.Model.Stat
/-
The words used in the statements about ratings and tournaments (C28, C29).
-/
namespace Bglib.Spec
open Classical

/-- The chance a player has of winning a match, whoever is stronger (exact arithmetic). -/
noncomputable def chance (player opp length : ℝ) : ℝ :=
  1 / (1 + (10 : ℝ) ^ ((opp - player) * Real.sqrt length / 2000))

variable {κ : Type} [DecidableEq κ]

/-- Everybody entered in the tournament. -/
def everybody (t : Tourney κ) : List κ := t.alive.map (·.1) ++ t.dead.map (·.1)

/-- Nobody is entered twice. -/
def Proper (t : Tourney κ) : Prop := (everybody t).Nodup

/-- All lives, of those in and those out. -/
def lives (t : Tourney κ) : Int := ((t.alive ++ t.dead).map (fun e => e.2.lives)).sum

/-- Defeats the players still in can take together before all are out. -/
def defeatsLeft (t : Tourney κ) : Nat := (t.alive.map (fun e => max 1 e.2.lives.toNat)).sum

end Bglib.Spec
