import Verif.Model.FormatScript
import Verif.Spec.Wiki
/-
The words used in the statements about the script that writes a page (C121).
-/
namespace Bglib.Spec
open Bglib Doc Script

/-- A page with a title and the HTML of a document. -/
def pageOf (title : Text) (b : List Tok) : List Piece :=
  [.text (t!"<html>\n<head>\n<title>" ++ escape title ++
      t!"</title></head><body><link rel=\"stylesheet\" type=\"text/css\" href=\"backgammonbase.css\">\n"),
    .html b, .text t!"\n", .text t!"</body></html>\n"]

/-- The title asked for. -/
def titleAsked (args : List Text) : Text := args.headD t!"Backgammon Document"

/-- All characters are ASCII. -/
def AsciiText (t : Text) : Prop := ∀ c ∈ t, c.toNat < 128

/-- A title that is written the same between tags. -/
def NoMarkup (t : Text) : Prop := ∀ c ∈ t, c ≠ '<' ∧ c ≠ '>' ∧ c ≠ '&'

end Bglib.Spec
