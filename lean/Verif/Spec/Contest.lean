import Verif.Model.Contest
/-
The words used in the statements about tournaments among given players (C115).
-/
namespace Bglib.Spec
variable {κ : Type} [DecidableEq κ]

/-- No key is entered twice (the two dictionaries have no key in common). -/
def KeysOnce (c : Contest κ) : Prop := ((c.alive ++ c.dead).map (·.1)).Nodup

/-- No player object is entered twice. -/
def PlayersOnce (c : Contest κ) : Prop := ((c.alive ++ c.dead).map (·.2)).Nodup

/-- The tournament one sees when one looks at the players as they are now. -/
def look (c : Contest κ) : Tourney κ :=
  ⟨c.alive.map fun e => (e.1, c.players e.2), c.dead.map fun e => (e.1, c.players e.2), c.matchlength⟩

/-- The lives of somebody who entered with `before` lives and is out: they are gone, and who came without
any has one less. -/
def livesOut (before : Int) : Int := min before 1 - 1

/-- The lives somebody who entered with `before` lives and is in may have: some of them, or, if there was
at most one to lose, as many as before. -/
def LivesIn (before now : Int) : Prop := now ≤ before ∧ min before 1 ≤ now

/-- Defeats the players still in can take together at most. -/
def takes (c : Contest κ) : Nat := (c.alive.map fun e => max 1 (c.players e.2).lives.toNat).sum

end Bglib.Spec
