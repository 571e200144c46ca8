import Verif.Model.Theme.Deutsche
import Verif.Model.Theme.Flower
import Verif.Model.Theme.Kotobuki
import Verif.Model.Theme.Matrix
import Verif.Model.Theme.Minimal
import Verif.Model.Theme.Nature
import Verif.Model.Theme.Neon
import Verif.Model.Theme.Safari
/-
The styles that come with the library (C67, C68).
-/
namespace Bglib.Spec
open Bglib Bglib.Img

/-- The styles of `bglib/image/resource`: the path of the style sheet and its lines. -/
def shipped : List (Text × List Text) := [
  (Deutsche.path, Deutsche.lines), (Flower.path, Flower.lines), (Kotobuki.path, Kotobuki.lines),
  (Matrix.path, Matrix.lines), (Minimal.path, Minimal.lines), (Nature.path, Nature.lines),
  (Neon.path, Neon.lines), (Safari.path, Safari.lines)]

end Bglib.Spec
