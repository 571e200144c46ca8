import Verif.Model.MoveFactory
import Verif.Spec.BoardView
/-
Dice of a turn and chains of movements, as the rules speak of them.
-/
namespace Bglib.Spec

/-- The dice a roll gives: four of a kind for doubles. -/
def diceOf (r : Int × Int) : List Int := if r.1 = r.2 then [r.1, r.1, r.1, r.1] else [r.1, r.2]

/-- The dice still to be played, one entry per play. -/
def diceLeft (a : Avail) : List Int :=
  List.replicate a.d1 1 ++ List.replicate a.d2 2 ++ List.replicate a.d3 3 ++
  List.replicate a.d4 4 ++ List.replicate a.d5 5 ++ List.replicate a.d6 6

/-- The movements follow each other from point `src` to point `dest`, with one chequer. -/
def Leads : List PartialMove → Int → Int → Prop
  | [], s, d => s = d
  | pm :: pms, s, d => pm.src = s ∧ Leads pms pm.dest d

/-- No more often than there are dice: the movements use different dice of `ds`. -/
def UsesDice (pms : List PartialMove) (ds : List Int) : Prop :=
  ∀ d, (pms.map (·.die)).count d ≤ ds.count d

/-- Dice spent by the forward movements of a play. -/
def spent (pms : List PartialMove) : List Int := (pms.filter (fun pm => pm.dest < pm.src)).map (·.die)

/-- Dice given back by the backward movements recorded in a play. -/
def givenBack (pms : List PartialMove) : List Int :=
  (pms.filter (fun pm => pm.src < pm.dest)).map (·.die)

end Bglib.Spec
