import Verif.Spec.Snowie
import Verif.Model.SnowieDigest
/-
The order of the lines of a match record, and the text of one.
-/
namespace Bglib.Spec
open Bglib Bglib.Snowie

/-- All the text of some lines. -/
def allText (ls : List Line) : Text := (ls.map (·.text)).flatten

/-- The lines of a record without empty ones and those that only tell a result. -/
def recordContent (ls : List Line) : List Line := ls.filter fun l => l.kind ≠ .empty ∧ l.kind ≠ .result

end Bglib.Spec
