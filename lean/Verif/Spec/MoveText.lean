import Verif.Model.Regex
import Verif.Model.Xgid
/-
Backgammon notation of plays, written independently of the program: `24/18*`, `bar/20`, `6/off`; several plays
are separated by a comma and a blank; a turn without plays is `o-o`.
-/
namespace Bglib.Spec

/-- The name of a place: -1 is off, 24 the bar, `n` the point `n + 1`. -/
def placeName (n : Int) : Text :=
  if n = -1 then t!"off" else if n = 24 then t!"bar" else decimal (n + 1).toNat

/-- Places of a board. -/
def places : List Int := (List.range 26).map fun (k : Nat) => (k : Int) - 1

/-- The place of a name. -/
def readPlace (t : Text) : Option Int := places.find? fun n => placeName n = t

/-- What a play says: from, to, whether it hits. -/
structure Play where
  src : Int
  dest : Int
  hit : Bool
deriving DecidableEq, Repr

/-- Reads one play: two places with a slash between, and a star for a hit. -/
def readPlay (t : Text) : Option Play :=
  match splitChar '/' t with
  | [s, d] =>
    let hit := d.getLast? = some '*'
    match readPlace s, readPlace (if hit then d.dropLast else d) with
    | some a, some b => some ⟨a, b, hit⟩
    | _, _ => none
  | _ => none

/-- Reads all, or nothing. -/
def readEach (f : Text → Option α) : List Text → Option (List α)
  | [] => some []
  | t :: ts => match f t, readEach f ts with
    | some a, some as => some (a :: as)
    | _, _ => none

/-- Reads a turn. -/
def readTurn (t : Text) : Option (List Play) :=
  if t = t!"o-o" then some []
  else readEach (fun u => readPlay (if u.head? = some ' ' then u.drop 1 else u)) (splitChar ',' t)

end Bglib.Spec
