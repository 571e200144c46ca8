import Verif.Spec.Cards
import Verif.Spec.Palette
import Verif.Spec.Device
/-
The files that come with the styles of the library (C104), from a listing of bglib/image/resource.
-/
namespace Bglib.Spec
open Bglib Bglib.Img

/-- Names with the numbers from `lo` to `hi`. -/
def series (name : Text) (lo hi : Nat) : List Text := (List.range' lo (hi + 1 - lo)).map fun n => name ++ decimal n

/-- The fonts there are. -/
def fontFiles : List Text := [
  t!"bglib/image/resource/deutsche/ActionManShadedItalic.ttf",
  t!"bglib/image/resource/flower/Advert-Italic.ttf",
  t!"bglib/image/resource/kotobuki/DejaVuLGCSans-Bold.ttf",
  t!"bglib/image/resource/minimal/Alien-Encounters-Bold-Italic.ttf",
  t!"bglib/image/resource/nature/DejaVuLGCSans-Bold.ttf",
  t!"bglib/image/resource/neon/Cake.ttf"]

/-- The images of the style safari but one. -/
def safariFiles : List Text :=
  [t!"action", t!"action_green", t!"action_white", t!"bar-none", t!"center", t!"crawford", t!"cubeholder", t!"empty-edge", t!"empty-home",
    t!"even-none", t!"field", t!"frame", t!"his-home", t!"non-crawford", t!"odd-none", t!"position", t!"score_template", t!"your-home"] ++
  series t!"bar-green-" 1 7 ++ series t!"bar-white-" 1 7 ++ series t!"cube_" 0 5 ++ series t!"die_" 1 6 ++ series t!"even-green-" 1 15 ++
  series t!"even-white-" 1 15 ++ series t!"odd-green-" 1 15 ++ series t!"odd-white-" 1 15 ++ series t!"score_" 0 25

/-- The images of the style matrix. -/
def matrixFiles : List Text :=
  [t!"checker_blue", t!"checker_red", t!"ind_blue_r", t!"ind_red_l", t!"position"] ++ series t!"dice_blue_" 1 6 ++ series t!"dice_red_" 1 6

/-- The images there are. -/
def imageFiles : List Text :=
  t!"bglib/image/resource/safari/chip.png" :: safariFiles.map safari ++ matrixFiles.map matrix

/-- An address of a file in the directory of a style. -/
def InStyle (u : Text) : Prop := ∃ s ∈ shipped, ∃ f, '/' ∉ f ∧ u = dirname s.1 ++ '/' :: f

/-- The library can load the files that are there in all sizes, and those of the styles that are not there in none. -/
structure Loads (L : Library) : Prop where
  font : ∀ u ∈ fontFiles, ∀ n, L.truetype u n = .ok ()
  image : ∀ u ∈ imageFiles, ∃ alpha, L.open_ u = .ok alpha
  resize : ∀ u ∈ imageFiles, ∀ size, L.resize u size = .ok ()
  noFont : ∀ u, InStyle u → u ∉ fontFiles → ∀ n, ∃ e, L.truetype u n = .error e
  noImage : ∀ u, InStyle u → u ∉ imageFiles → ∃ e, L.open_ u = .error e

end Bglib.Spec
