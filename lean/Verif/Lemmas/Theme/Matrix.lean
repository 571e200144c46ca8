import Verif.Model.Theme.Matrix
import Verif.Lemmas.Theme
/-
The rules read from the style sheet `bglib/image/resource/matrix/default.css`, and that they can draw every board.
-/
namespace Bglib.Img.Matrix
open Bglib Bglib.Img

set_option maxRecDepth 100000

def rules0 : List Rule := [
  ⟨path, [⟨t!"board", none, none⟩], [(t!"x", t!"0"), (t!"y", t!"0"), (t!"width", t!"1000"), (t!"height", t!"800")]⟩,
  ⟨path, [⟨t!"board", none, none⟩], [(t!"font", t!"uri(\"DejaVuLGCSans-Bold.ttf\")")]⟩,
  ⟨path, [⟨t!"match", none, none⟩], [(t!"x", t!"800"), (t!"y", t!"0"), (t!"width", t!"200"), (t!"height", t!"1000")]⟩,
  ⟨path, [⟨t!"length", none, none⟩], [(t!"x", t!"900"), (t!"y", t!"400"), (t!"width", t!"100"), (t!"height", t!"200")]⟩,
  ⟨path, [⟨t!"crawford", none, none⟩], [(t!"x", t!"800"), (t!"y", t!"400"), (t!"width", t!"100"), (t!"height", t!"200")]⟩,
  ⟨path, [⟨t!"score", none, none⟩], [(t!"width", t!"200"), (t!"height", t!"300")]⟩,
  ⟨path, [⟨t!"score", some (t!"player", t!"you"), none⟩], [(t!"x", t!"800"), (t!"y", t!"500"), (t!"color", t!"#3cb7ff")]⟩,
  ⟨path, [⟨t!"score", some (t!"player", t!"him"), none⟩], [(t!"x", t!"800"), (t!"y", t!"0"), (t!"color", t!"#fd4993")]⟩,
  ⟨path, [⟨t!"action", none, none⟩], [(t!"width", t!"100"), (t!"height", t!"100")]⟩,
  ⟨path, [⟨t!"action", some (t!"player", t!"you"), none⟩], [(t!"x", t!"830"), (t!"y", t!"670"), (t!"image", t!"uri(\"ind_blue_r.png\")")]⟩,
  ⟨path, [⟨t!"action", some (t!"player", t!"him"), none⟩], [(t!"x", t!"830"), (t!"y", t!"30"), (t!"image", t!"uri(\"ind_red_l.png\")")]⟩,
  ⟨path, [⟨t!"player", none, none⟩], [(t!"width", t!"0"), (t!"height", t!"0")]⟩,
  ⟨path, [⟨t!"player", some (t!"player", t!"you"), none⟩], [(t!"x", t!"0"), (t!"y", t!"0")]⟩,
  ⟨path, [⟨t!"player", some (t!"player", t!"him"), none⟩], [(t!"x", t!"0"), (t!"y", t!"0")]⟩,
  ⟨path, [⟨t!"position", none, none⟩], [(t!"x", t!"0"), (t!"y", t!"0"), (t!"width", t!"800"), (t!"height", t!"800"), (t!"image", t!"uri(\"position.png\")")]⟩,
  ⟨path, [⟨t!"point", none, none⟩], [(t!"width", t!"100"), (t!"height", t!"100")]⟩,
  ⟨path, [⟨t!"point", none, some t!"1"⟩], [(t!"x", t!"560"), (t!"y", t!"560")]⟩,
  ⟨path, [⟨t!"point", none, some t!"2"⟩], [(t!"x", t!"460"), (t!"y", t!"560")]⟩,
  ⟨path, [⟨t!"point", none, some t!"3"⟩], [(t!"x", t!"360"), (t!"y", t!"560")]⟩,
  ⟨path, [⟨t!"point", none, some t!"4"⟩], [(t!"x", t!"260"), (t!"y", t!"560")]⟩,
  ⟨path, [⟨t!"point", none, some t!"5"⟩], [(t!"x", t!"160"), (t!"y", t!"560")]⟩,
  ⟨path, [⟨t!"point", none, some t!"6"⟩], [(t!"x", t!"160"), (t!"y", t!"460")]⟩,
  ⟨path, [⟨t!"point", none, some t!"7"⟩], [(t!"x", t!"260"), (t!"y", t!"460")]⟩,
  ⟨path, [⟨t!"point", none, some t!"8"⟩], [(t!"x", t!"360"), (t!"y", t!"460")]⟩,
  ⟨path, [⟨t!"point", none, some t!"9"⟩], [(t!"x", t!"460"), (t!"y", t!"460")]⟩,
  ⟨path, [⟨t!"point", none, some t!"10"⟩], [(t!"x", t!"560"), (t!"y", t!"460")]⟩]

theorem load0 : loadCss path lines0 = .ok rules0 := by decide +kernel

def rules1 : List Rule := [
  ⟨path, [⟨t!"point", none, some t!"11"⟩], [(t!"x", t!"560"), (t!"y", t!"360")]⟩,
  ⟨path, [⟨t!"point", none, some t!"12"⟩], [(t!"x", t!"460"), (t!"y", t!"360")]⟩,
  ⟨path, [⟨t!"point", none, some t!"13"⟩], [(t!"x", t!"260"), (t!"y", t!"360")]⟩,
  ⟨path, [⟨t!"point", none, some t!"14"⟩], [(t!"x", t!"160"), (t!"y", t!"360")]⟩,
  ⟨path, [⟨t!"point", none, some t!"15"⟩], [(t!"x", t!"160"), (t!"y", t!"260")]⟩,
  ⟨path, [⟨t!"point", none, some t!"16"⟩], [(t!"x", t!"260"), (t!"y", t!"260")]⟩,
  ⟨path, [⟨t!"point", none, some t!"17"⟩], [(t!"x", t!"360"), (t!"y", t!"260")]⟩,
  ⟨path, [⟨t!"point", none, some t!"18"⟩], [(t!"x", t!"460"), (t!"y", t!"260")]⟩,
  ⟨path, [⟨t!"point", none, some t!"19"⟩], [(t!"x", t!"560"), (t!"y", t!"260")]⟩,
  ⟨path, [⟨t!"point", none, some t!"20"⟩], [(t!"x", t!"560"), (t!"y", t!"160")]⟩,
  ⟨path, [⟨t!"point", none, some t!"21"⟩], [(t!"x", t!"460"), (t!"y", t!"160")]⟩,
  ⟨path, [⟨t!"point", none, some t!"22"⟩], [(t!"x", t!"360"), (t!"y", t!"160")]⟩,
  ⟨path, [⟨t!"point", none, some t!"23"⟩], [(t!"x", t!"260"), (t!"y", t!"160")]⟩,
  ⟨path, [⟨t!"point", none, some t!"24"⟩], [(t!"x", t!"160"), (t!"y", t!"160")]⟩,
  ⟨path, [⟨t!"bar", none, none⟩], [(t!"width", t!"25"), (t!"height", t!"111")]⟩,
  ⟨path, [⟨t!"bar", some (t!"player", t!"him"), none⟩], [(t!"x", t!"160"), (t!"y", t!"10")]⟩,
  ⟨path, [⟨t!"bar", some (t!"player", t!"you"), none⟩], [(t!"x", t!"160"), (t!"y", t!"770")]⟩,
  ⟨path, [⟨t!"home", none, none⟩], [(t!"width", t!"500"), (t!"height", t!"70")]⟩,
  ⟨path, [⟨t!"home", some (t!"player", t!"you"), none⟩], [(t!"x", t!"160"), (t!"y", t!"670")]⟩,
  ⟨path, [⟨t!"home", some (t!"player", t!"him"), none⟩], [(t!"x", t!"160"), (t!"y", t!"60")]⟩,
  ⟨path, [⟨t!"field", none, none⟩], [(t!"width", t!"100"), (t!"height", t!"650")]⟩,
  ⟨path, [⟨t!"field", some (t!"player", t!"him"), none⟩], [(t!"x", t!"30"), (t!"y", t!"30")]⟩,
  ⟨path, [⟨t!"field", some (t!"player", t!"you"), none⟩], [(t!"x", t!"670"), (t!"y", t!"30")]⟩]

theorem load1 : loadCss path lines1 = .ok rules1 := by decide +kernel

def rules2 : List Rule := [
  ⟨path, [⟨t!"die", none, none⟩], [(t!"width", t!"30"), (t!"height", t!"30")]⟩,
  ⟨path, [⟨t!"field", some (t!"player", t!"him"), none⟩, ⟨t!"die", some (t!"id", t!"left"), none⟩], [(t!"x", t!"60"), (t!"y", t!"500")]⟩,
  ⟨path, [⟨t!"field", some (t!"player", t!"him"), none⟩, ⟨t!"die", some (t!"id", t!"right"), none⟩], [(t!"x", t!"105"), (t!"y", t!"480")]⟩,
  ⟨path, [⟨t!"field", some (t!"player", t!"him"), none⟩, ⟨t!"die", none, some t!"1"⟩], [(t!"image", t!"uri(\"dice_red_1.png\")")]⟩,
  ⟨path, [⟨t!"field", some (t!"player", t!"him"), none⟩, ⟨t!"die", none, some t!"2"⟩], [(t!"image", t!"uri(\"dice_red_2.png\")")]⟩,
  ⟨path, [⟨t!"field", some (t!"player", t!"him"), none⟩, ⟨t!"die", none, some t!"3"⟩], [(t!"image", t!"uri(\"dice_red_3.png\")")]⟩,
  ⟨path, [⟨t!"field", some (t!"player", t!"him"), none⟩, ⟨t!"die", none, some t!"4"⟩], [(t!"image", t!"uri(\"dice_red_4.png\")")]⟩,
  ⟨path, [⟨t!"field", some (t!"player", t!"him"), none⟩, ⟨t!"die", none, some t!"5"⟩], [(t!"image", t!"uri(\"dice_red_5.png\")")]⟩,
  ⟨path, [⟨t!"field", some (t!"player", t!"him"), none⟩, ⟨t!"die", none, some t!"6"⟩], [(t!"image", t!"uri(\"dice_red_6.png\")")]⟩,
  ⟨path, [⟨t!"field", some (t!"player", t!"you"), none⟩, ⟨t!"die", some (t!"id", t!"left"), none⟩], [(t!"x", t!"690"), (t!"y", t!"260")]⟩,
  ⟨path, [⟨t!"field", some (t!"player", t!"you"), none⟩, ⟨t!"die", some (t!"id", t!"right"), none⟩], [(t!"x", t!"735"), (t!"y", t!"280")]⟩,
  ⟨path, [⟨t!"field", some (t!"player", t!"you"), none⟩, ⟨t!"die", none, some t!"1"⟩], [(t!"image", t!"uri(\"dice_blue_1.png\")")]⟩,
  ⟨path, [⟨t!"field", some (t!"player", t!"you"), none⟩, ⟨t!"die", none, some t!"2"⟩], [(t!"image", t!"uri(\"dice_blue_2.png\")")]⟩,
  ⟨path, [⟨t!"field", some (t!"player", t!"you"), none⟩, ⟨t!"die", none, some t!"3"⟩], [(t!"image", t!"uri(\"dice_blue_3.png\")")]⟩,
  ⟨path, [⟨t!"field", some (t!"player", t!"you"), none⟩, ⟨t!"die", none, some t!"4"⟩], [(t!"image", t!"uri(\"dice_blue_4.png\")")]⟩,
  ⟨path, [⟨t!"field", some (t!"player", t!"you"), none⟩, ⟨t!"die", none, some t!"5"⟩], [(t!"image", t!"uri(\"dice_blue_5.png\")")]⟩,
  ⟨path, [⟨t!"field", some (t!"player", t!"you"), none⟩, ⟨t!"die", none, some t!"6"⟩], [(t!"image", t!"uri(\"dice_blue_6.png\")")]⟩,
  ⟨path, [⟨t!"cubeholder", none, none⟩], [(t!"width", t!"100"), (t!"height", t!"100"), (t!"x", t!"360"), (t!"y", t!"460")]⟩,
  ⟨path, [⟨t!"home", some (t!"player", t!"you"), none⟩, ⟨t!"cube", none, none⟩], [(t!"x", t!"580"), (t!"y", t!"680")]⟩,
  ⟨path, [⟨t!"home", some (t!"player", t!"him"), none⟩, ⟨t!"cube", none, none⟩], [(t!"x", t!"580"), (t!"y", t!"60")]⟩,
  ⟨path, [⟨t!"field", some (t!"player", t!"you"), none⟩, ⟨t!"cube", none, none⟩], [(t!"x", t!"680"), (t!"y", t!"360")]⟩,
  ⟨path, [⟨t!"field", some (t!"player", t!"him"), none⟩, ⟨t!"cube", none, none⟩], [(t!"x", t!"50"), (t!"y", t!"360")]⟩,
  ⟨path, [⟨t!"cubeholder", none, none⟩, ⟨t!"cube", none, none⟩], [(t!"x", t!"360"), (t!"y", t!"360")]⟩,
  ⟨path, [⟨t!"cube", none, none⟩], [(t!"width", t!"80"), (t!"height", t!"80")]⟩,
  ⟨path, [⟨t!"field", some (t!"player", t!"you"), none⟩, ⟨t!"chip", none, none⟩], [(t!"x", t!"157"), (t!"y", t!"93"), (t!"x-offset", t!"20"), (t!"y-offset", t!"0")]⟩,
  ⟨path, [⟨t!"field", some (t!"player", t!"him"), none⟩, ⟨t!"chip", none, none⟩], [(t!"x", t!"25"), (t!"y", t!"93"), (t!"x-offset", t!"20"), (t!"y-offset", t!"0")]⟩,
  ⟨path, [⟨t!"chip", none, none⟩], [(t!"width", t!"25"), (t!"height", t!"25")]⟩]

theorem load2 : loadCss path lines2 = .ok rules2 := by decide +kernel

def rules3 : List Rule := [
  ⟨path, [⟨t!"chequer", none, none⟩], [(t!"max_count", t!"8")]⟩,
  ⟨path, [⟨t!"chequer", some (t!"player", t!"you"), none⟩], [(t!"width", t!"20"), (t!"height", t!"20"), (t!"image", t!"uri(\"checker_blue.png\")")]⟩,
  ⟨path, [⟨t!"chequer", some (t!"player", t!"him"), none⟩], [(t!"width", t!"20"), (t!"height", t!"20"), (t!"image", t!"uri(\"checker_red.png\")")]⟩,
  ⟨path, [⟨t!"point", none, none⟩, ⟨t!"chequer", none, none⟩], [(t!"x_offset", t!"30"), (t!"y_offset", t!"0")]⟩,
  ⟨path, [⟨t!"point", none, none⟩, ⟨t!"chequer", none, none⟩], [(t!"x_offset2", t!"-90"), (t!"y_offset2", t!"30")]⟩,
  ⟨path, [⟨t!"home", none, none⟩, ⟨t!"chequer", none, none⟩], [(t!"x_offset", t!"30"), (t!"y_offset", t!"0"), (t!"max_count", t!"15")]⟩]

theorem load3 : loadCss path lines3 = .ok rules3 := by decide +kernel

/-- The rules of the style. -/
def rules : List Rule := rules0 ++ (rules1 ++ (rules2 ++ (rules3)))

theorem load : loadCss path lines = .ok rules := loadCss_append load0 (loadCss_append load1 (loadCss_append load2 (load3)))

theorem ready : themeReady rules = true := by decide +kernel

theorem seen : themeSeen rules = true := by decide +kernel

end Bglib.Img.Matrix
