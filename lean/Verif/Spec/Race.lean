import Verif.Spec.Suggested
/-
Counting the race.  The pip count of a player is what all their chequers have to go until they are borne off: a chequer
on place `i` (0 is the ace point, 24 the bar) has to go `i + 1` pips.
-/
namespace Bglib.Spec

/-- The pip count of a row. -/
def pips (r : List Int) : Int := ((List.range 25).map fun (i : Nat) => ((i : Int) + 1) * cnt r i).sum

/-- Pips gone by one movement; the chequer that is borne off goes to place -1. -/
def gone (pm : PartialMove) : Int := pm.src - pm.dest

/-- Pips the opponent loses by one movement: the chequer hit on my place `dest` has to begin again. -/
def lost (pm : PartialMove) : Int := if pm.isHitting then pm.dest + 1 else 0

end Bglib.Spec
