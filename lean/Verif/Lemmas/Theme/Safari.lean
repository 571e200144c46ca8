import Verif.Model.Theme.Safari
import Verif.Lemmas.Theme
/-
The rules read from the style sheet `bglib/image/resource/safari/default.css`, and that they can draw every board.
-/
namespace Bglib.Img.Safari
open Bglib Bglib.Img

set_option maxRecDepth 100000

def rules0 : List Rule := [
  ⟨path, [⟨t!"board", none, none⟩], [(t!"x", t!"0"), (t!"y", t!"0"), (t!"width", t!"341"), (t!"height", t!"232"), (t!"background", t!"red")]⟩,
  ⟨path, [⟨t!"board", none, none⟩], [(t!"font", t!"uri(\"DejaVuLGCSans-Bold.ttf\")")]⟩,
  ⟨path, [⟨t!"match", none, none⟩], [(t!"x", t!"291"), (t!"y", t!"0"), (t!"width", t!"100"), (t!"height", t!"232")]⟩,
  ⟨path, [⟨t!"length", none, none⟩], [(t!"x", t!"316"), (t!"y", t!"93"), (t!"width", t!"25"), (t!"height", t!"46")]⟩,
  ⟨path, [⟨t!"length", none, some t!"0"⟩], [(t!"image", t!"uri(\"score_0.jpg\")")]⟩,
  ⟨path, [⟨t!"length", none, some t!"1"⟩], [(t!"image", t!"uri(\"score_1.jpg\")")]⟩,
  ⟨path, [⟨t!"length", none, some t!"2"⟩], [(t!"image", t!"uri(\"score_2.jpg\")")]⟩,
  ⟨path, [⟨t!"length", none, some t!"3"⟩], [(t!"image", t!"uri(\"score_3.jpg\")")]⟩,
  ⟨path, [⟨t!"length", none, some t!"4"⟩], [(t!"image", t!"uri(\"score_4.jpg\")")]⟩,
  ⟨path, [⟨t!"length", none, some t!"5"⟩], [(t!"image", t!"uri(\"score_5.jpg\")")]⟩,
  ⟨path, [⟨t!"length", none, some t!"6"⟩], [(t!"image", t!"uri(\"score_6.jpg\")")]⟩,
  ⟨path, [⟨t!"length", none, some t!"7"⟩], [(t!"image", t!"uri(\"score_7.jpg\")")]⟩,
  ⟨path, [⟨t!"length", none, some t!"8"⟩], [(t!"image", t!"uri(\"score_8.jpg\")")]⟩,
  ⟨path, [⟨t!"length", none, some t!"9"⟩], [(t!"image", t!"uri(\"score_9.jpg\")")]⟩,
  ⟨path, [⟨t!"length", none, some t!"10"⟩], [(t!"image", t!"uri(\"score_10.jpg\")")]⟩,
  ⟨path, [⟨t!"length", none, some t!"11"⟩], [(t!"image", t!"uri(\"score_11.jpg\")")]⟩,
  ⟨path, [⟨t!"length", none, some t!"12"⟩], [(t!"image", t!"uri(\"score_12.jpg\")")]⟩,
  ⟨path, [⟨t!"length", none, some t!"13"⟩], [(t!"image", t!"uri(\"score_13.jpg\")")]⟩,
  ⟨path, [⟨t!"length", none, some t!"14"⟩], [(t!"image", t!"uri(\"score_14.jpg\")")]⟩,
  ⟨path, [⟨t!"length", none, some t!"15"⟩], [(t!"image", t!"uri(\"score_15.jpg\")")]⟩,
  ⟨path, [⟨t!"length", none, some t!"16"⟩], [(t!"image", t!"uri(\"score_16.jpg\")")]⟩,
  ⟨path, [⟨t!"length", none, some t!"17"⟩], [(t!"image", t!"uri(\"score_17.jpg\")")]⟩,
  ⟨path, [⟨t!"length", none, some t!"18"⟩], [(t!"image", t!"uri(\"score_18.jpg\")")]⟩,
  ⟨path, [⟨t!"length", none, some t!"19"⟩], [(t!"image", t!"uri(\"score_19.jpg\")")]⟩,
  ⟨path, [⟨t!"length", none, some t!"20"⟩], [(t!"image", t!"uri(\"score_20.jpg\")")]⟩,
  ⟨path, [⟨t!"length", none, some t!"21"⟩], [(t!"image", t!"uri(\"score_21.jpg\")")]⟩,
  ⟨path, [⟨t!"length", none, some t!"22"⟩], [(t!"image", t!"uri(\"score_22.jpg\")")]⟩,
  ⟨path, [⟨t!"length", none, some t!"23"⟩], [(t!"image", t!"uri(\"score_23.jpg\")")]⟩,
  ⟨path, [⟨t!"length", none, some t!"24"⟩], [(t!"image", t!"uri(\"score_24.jpg\")")]⟩,
  ⟨path, [⟨t!"length", none, some t!"25"⟩], [(t!"image", t!"uri(\"score_25.jpg\")")]⟩]

theorem load0 : loadCss path lines0 = .ok rules0 := by decide +kernel

def rules1 : List Rule := [
  ⟨path, [⟨t!"crawford", none, some t!"True"⟩], [(t!"image", t!"uri(\"crawford.jpg\")")]⟩,
  ⟨path, [⟨t!"crawford", none, some t!"False"⟩], [(t!"image", t!"uri(\"score_template.jpg\")")]⟩,
  ⟨path, [⟨t!"crawford", none, none⟩], [(t!"x", t!"291"), (t!"y", t!"93"), (t!"width", t!"25"), (t!"height", t!"46")]⟩,
  ⟨path, [⟨t!"score", none, none⟩], [(t!"width", t!"50"), (t!"height", t!"93")]⟩,
  ⟨path, [⟨t!"score", some (t!"player", t!"you"), none⟩], [(t!"x", t!"291"), (t!"y", t!"139")]⟩,
  ⟨path, [⟨t!"score", some (t!"player", t!"him"), none⟩], [(t!"x", t!"291"), (t!"y", t!"0")]⟩,
  ⟨path, [⟨t!"score", none, some t!"0"⟩], [(t!"image", t!"uri(\"score_0.jpg\")")]⟩,
  ⟨path, [⟨t!"score", none, some t!"1"⟩], [(t!"image", t!"uri(\"score_1.jpg\")")]⟩,
  ⟨path, [⟨t!"score", none, some t!"2"⟩], [(t!"image", t!"uri(\"score_2.jpg\")")]⟩,
  ⟨path, [⟨t!"score", none, some t!"3"⟩], [(t!"image", t!"uri(\"score_3.jpg\")")]⟩,
  ⟨path, [⟨t!"score", none, some t!"4"⟩], [(t!"image", t!"uri(\"score_4.jpg\")")]⟩,
  ⟨path, [⟨t!"score", none, some t!"5"⟩], [(t!"image", t!"uri(\"score_5.jpg\")")]⟩,
  ⟨path, [⟨t!"score", none, some t!"6"⟩], [(t!"image", t!"uri(\"score_6.jpg\")")]⟩,
  ⟨path, [⟨t!"score", none, some t!"7"⟩], [(t!"image", t!"uri(\"score_7.jpg\")")]⟩,
  ⟨path, [⟨t!"score", none, some t!"8"⟩], [(t!"image", t!"uri(\"score_8.jpg\")")]⟩,
  ⟨path, [⟨t!"score", none, some t!"9"⟩], [(t!"image", t!"uri(\"score_9.jpg\")")]⟩,
  ⟨path, [⟨t!"score", none, some t!"10"⟩], [(t!"image", t!"uri(\"score_10.jpg\")")]⟩,
  ⟨path, [⟨t!"score", none, some t!"11"⟩], [(t!"image", t!"uri(\"score_11.jpg\")")]⟩,
  ⟨path, [⟨t!"score", none, some t!"12"⟩], [(t!"image", t!"uri(\"score_12.jpg\")")]⟩,
  ⟨path, [⟨t!"score", none, some t!"13"⟩], [(t!"image", t!"uri(\"score_13.jpg\")")]⟩,
  ⟨path, [⟨t!"score", none, some t!"14"⟩], [(t!"image", t!"uri(\"score_14.jpg\")")]⟩,
  ⟨path, [⟨t!"score", none, some t!"15"⟩], [(t!"image", t!"uri(\"score_15.jpg\")")]⟩,
  ⟨path, [⟨t!"score", none, some t!"16"⟩], [(t!"image", t!"uri(\"score_16.jpg\")")]⟩,
  ⟨path, [⟨t!"score", none, some t!"17"⟩], [(t!"image", t!"uri(\"score_17.jpg\")")]⟩,
  ⟨path, [⟨t!"score", none, some t!"18"⟩], [(t!"image", t!"uri(\"score_18.jpg\")")]⟩,
  ⟨path, [⟨t!"score", none, some t!"19"⟩], [(t!"image", t!"uri(\"score_19.jpg\")")]⟩,
  ⟨path, [⟨t!"score", none, some t!"20"⟩], [(t!"image", t!"uri(\"score_20.jpg\")")]⟩,
  ⟨path, [⟨t!"score", none, some t!"21"⟩], [(t!"image", t!"uri(\"score_21.jpg\")")]⟩,
  ⟨path, [⟨t!"score", none, some t!"22"⟩], [(t!"image", t!"uri(\"score_22.jpg\")")]⟩,
  ⟨path, [⟨t!"score", none, some t!"23"⟩], [(t!"image", t!"uri(\"score_23.jpg\")")]⟩]

theorem load1 : loadCss path lines1 = .ok rules1 := by decide +kernel

def rules2 : List Rule := [
  ⟨path, [⟨t!"score", none, some t!"24"⟩], [(t!"image", t!"uri(\"score_24.jpg\")")]⟩,
  ⟨path, [⟨t!"score", none, some t!"25"⟩], [(t!"image", t!"uri(\"score_25.jpg\")")]⟩,
  ⟨path, [⟨t!"action", none, none⟩], [(t!"width", t!"25"), (t!"height", t!"26"), (t!"x", t!"0"), (t!"y", t!"103"), (t!"background", t!"white")]⟩,
  ⟨path, [⟨t!"action", some (t!"player", t!"you"), none⟩], [(t!"image", t!"uri(\"action_white.jpg\")")]⟩,
  ⟨path, [⟨t!"action", some (t!"player", t!"him"), none⟩], [(t!"image", t!"uri(\"action_green.jpg\")")]⟩,
  ⟨path, [⟨t!"player", none, none⟩], [(t!"width", t!"0"), (t!"height", t!"0")]⟩,
  ⟨path, [⟨t!"player", some (t!"player", t!"you"), none⟩], [(t!"x", t!"0"), (t!"y", t!"0")]⟩,
  ⟨path, [⟨t!"player", some (t!"player", t!"him"), none⟩], [(t!"x", t!"0"), (t!"y", t!"0")]⟩,
  ⟨path, [⟨t!"position", none, none⟩], [(t!"x", t!"0"), (t!"y", t!"0"), (t!"width", t!"291"), (t!"height", t!"232"), (t!"image", t!"uri(\"position.jpg\")")]⟩,
  ⟨path, [⟨t!"point", none, none⟩], [(t!"width", t!"18"), (t!"height", t!"88")]⟩,
  ⟨path, [⟨t!"point", none, some t!"1"⟩], [(t!"x", t!"248"), (t!"y", t!"139")]⟩,
  ⟨path, [⟨t!"point", none, some t!"2"⟩], [(t!"x", t!"230"), (t!"y", t!"139")]⟩,
  ⟨path, [⟨t!"point", none, some t!"3"⟩], [(t!"x", t!"212"), (t!"y", t!"139")]⟩,
  ⟨path, [⟨t!"point", none, some t!"4"⟩], [(t!"x", t!"194"), (t!"y", t!"139")]⟩,
  ⟨path, [⟨t!"point", none, some t!"5"⟩], [(t!"x", t!"176"), (t!"y", t!"139")]⟩,
  ⟨path, [⟨t!"point", none, some t!"6"⟩], [(t!"x", t!"158"), (t!"y", t!"139")]⟩,
  ⟨path, [⟨t!"point", none, some t!"7"⟩], [(t!"x", t!"115"), (t!"y", t!"139")]⟩,
  ⟨path, [⟨t!"point", none, some t!"8"⟩], [(t!"x", t!"97"), (t!"y", t!"139")]⟩,
  ⟨path, [⟨t!"point", none, some t!"9"⟩], [(t!"x", t!"79"), (t!"y", t!"139")]⟩,
  ⟨path, [⟨t!"point", none, some t!"10"⟩], [(t!"x", t!"61"), (t!"y", t!"139")]⟩,
  ⟨path, [⟨t!"point", none, some t!"11"⟩], [(t!"x", t!"43"), (t!"y", t!"139")]⟩,
  ⟨path, [⟨t!"point", none, some t!"12"⟩], [(t!"x", t!"25"), (t!"y", t!"139")]⟩,
  ⟨path, [⟨t!"point", none, some t!"13"⟩], [(t!"x", t!"25"), (t!"y", t!"5"), (t!"flip", t!"True")]⟩,
  ⟨path, [⟨t!"point", none, some t!"14"⟩], [(t!"x", t!"43"), (t!"y", t!"5"), (t!"flip", t!"True")]⟩,
  ⟨path, [⟨t!"point", none, some t!"15"⟩], [(t!"x", t!"61"), (t!"y", t!"5"), (t!"flip", t!"True")]⟩,
  ⟨path, [⟨t!"point", none, some t!"16"⟩], [(t!"x", t!"79"), (t!"y", t!"5"), (t!"flip", t!"True")]⟩,
  ⟨path, [⟨t!"point", none, some t!"17"⟩], [(t!"x", t!"97"), (t!"y", t!"5"), (t!"flip", t!"True")]⟩,
  ⟨path, [⟨t!"point", none, some t!"18"⟩], [(t!"x", t!"115"), (t!"y", t!"5"), (t!"flip", t!"True")]⟩]

theorem load2 : loadCss path lines2 = .ok rules2 := by decide +kernel

def rules3 : List Rule := [
  ⟨path, [⟨t!"point", none, some t!"19"⟩], [(t!"x", t!"158"), (t!"y", t!"5"), (t!"flip", t!"True")]⟩,
  ⟨path, [⟨t!"point", none, some t!"20"⟩], [(t!"x", t!"176"), (t!"y", t!"5"), (t!"flip", t!"True")]⟩,
  ⟨path, [⟨t!"point", none, some t!"21"⟩], [(t!"x", t!"194"), (t!"y", t!"5"), (t!"flip", t!"True")]⟩,
  ⟨path, [⟨t!"point", none, some t!"22"⟩], [(t!"x", t!"212"), (t!"y", t!"5"), (t!"flip", t!"True")]⟩,
  ⟨path, [⟨t!"point", none, some t!"23"⟩], [(t!"x", t!"230"), (t!"y", t!"5"), (t!"flip", t!"True")]⟩,
  ⟨path, [⟨t!"point", none, some t!"24"⟩], [(t!"x", t!"248"), (t!"y", t!"5"), (t!"flip", t!"True")]⟩,
  ⟨path, [⟨t!"point", some (t!"parity", t!"odd"), none⟩], [(t!"image", t!"uri(\"odd-none.jpg\")")]⟩,
  ⟨path, [⟨t!"point", some (t!"parity", t!"even"), none⟩], [(t!"image", t!"uri(\"even-none.jpg\")")]⟩,
  ⟨path, [⟨t!"bar", none, none⟩], [(t!"width", t!"25"), (t!"height", t!"111")]⟩,
  ⟨path, [⟨t!"bar", some (t!"player", t!"him"), none⟩], [(t!"image", t!"uri(\"bar-none.jpg\")")]⟩,
  ⟨path, [⟨t!"bar", some (t!"player", t!"you"), none⟩], [(t!"image", t!"uri(\"bar-none.jpg\")")]⟩,
  ⟨path, [⟨t!"bar", some (t!"player", t!"him"), none⟩], [(t!"x", t!"133"), (t!"y", t!"5")]⟩,
  ⟨path, [⟨t!"bar", some (t!"player", t!"you"), none⟩], [(t!"x", t!"133"), (t!"y", t!"116")]⟩,
  ⟨path, [⟨t!"cubeholder", none, none⟩], [(t!"width", t!"25"), (t!"height", t!"30"), (t!"image", t!"uri(\"cubeholder.jpg\")"), (t!"x", t!"266"), (t!"y", t!"101")]⟩,
  ⟨path, [⟨t!"home", none, none⟩], [(t!"width", t!"25"), (t!"height", t!"101")]⟩,
  ⟨path, [⟨t!"home", some (t!"player", t!"you"), none⟩], [(t!"x", t!"266"), (t!"y", t!"131"), (t!"image", t!"uri(\"your-home.jpg\")")]⟩,
  ⟨path, [⟨t!"home", some (t!"player", t!"him"), none⟩], [(t!"x", t!"266"), (t!"y", t!"0"), (t!"image", t!"uri(\"his-home.jpg\")")]⟩,
  ⟨path, [⟨t!"field", none, none⟩], [(t!"width", t!"108"), (t!"height", t!"46"), (t!"image", t!"uri(\"field.jpg\")")]⟩,
  ⟨path, [⟨t!"field", some (t!"player", t!"you"), none⟩], [(t!"x", t!"158"), (t!"y", t!"93")]⟩,
  ⟨path, [⟨t!"field", some (t!"player", t!"him"), none⟩], [(t!"x", t!"25"), (t!"y", t!"93")]⟩,
  ⟨path, [⟨t!"cubeholder", none, none⟩, ⟨t!"cube", none, none⟩], [(t!"x", t!"266"), (t!"y", t!"105")]⟩,
  ⟨path, [⟨t!"field", some (t!"player", t!"you"), none⟩, ⟨t!"die", some (t!"id", t!"left"), none⟩], [(t!"x", t!"176"), (t!"y", t!"95")]⟩,
  ⟨path, [⟨t!"field", some (t!"player", t!"you"), none⟩, ⟨t!"die", some (t!"id", t!"right"), none⟩], [(t!"x", t!"204"), (t!"y", t!"95")]⟩,
  ⟨path, [⟨t!"field", some (t!"player", t!"him"), none⟩, ⟨t!"die", some (t!"id", t!"left"), none⟩], [(t!"x", t!"43"), (t!"y", t!"95")]⟩]

theorem load3 : loadCss path lines3 = .ok rules3 := by decide +kernel

def rules4 : List Rule := [
  ⟨path, [⟨t!"field", some (t!"player", t!"him"), none⟩, ⟨t!"die", some (t!"id", t!"right"), none⟩], [(t!"x", t!"71"), (t!"y", t!"95")]⟩,
  ⟨path, [⟨t!"die", none, some t!"1"⟩], [(t!"image", t!"uri(\"die_1.jpg\")")]⟩,
  ⟨path, [⟨t!"die", none, some t!"2"⟩], [(t!"image", t!"uri(\"die_2.jpg\")")]⟩,
  ⟨path, [⟨t!"die", none, some t!"3"⟩], [(t!"image", t!"uri(\"die_3.jpg\")")]⟩,
  ⟨path, [⟨t!"die", none, some t!"4"⟩], [(t!"image", t!"uri(\"die_4.jpg\")")]⟩,
  ⟨path, [⟨t!"die", none, some t!"5"⟩], [(t!"image", t!"uri(\"die_5.jpg\")")]⟩,
  ⟨path, [⟨t!"die", none, some t!"6"⟩], [(t!"image", t!"uri(\"die_6.jpg\")")]⟩,
  ⟨path, [⟨t!"die", none, none⟩], [(t!"width", t!"16"), (t!"height", t!"16")]⟩,
  ⟨path, [⟨t!"home", some (t!"player", t!"you"), none⟩, ⟨t!"cube", none, none⟩], [(t!"x", t!"266"), (t!"y", t!"197")]⟩,
  ⟨path, [⟨t!"home", some (t!"player", t!"him"), none⟩, ⟨t!"cube", none, none⟩], [(t!"x", t!"266"), (t!"y", t!"5")]⟩,
  ⟨path, [⟨t!"field", some (t!"player", t!"you"), none⟩, ⟨t!"cube", none, none⟩], [(t!"x", t!"50"), (t!"y", t!"100")]⟩,
  ⟨path, [⟨t!"field", some (t!"player", t!"him"), none⟩, ⟨t!"cube", none, none⟩], [(t!"x", t!"180"), (t!"y", t!"100")]⟩,
  ⟨path, [⟨t!"cube", none, none⟩], [(t!"width", t!"25"), (t!"height", t!"25")]⟩,
  ⟨path, [⟨t!"cube", none, some t!"0"⟩], [(t!"image", t!"uri(\"cube_0.jpg\")")]⟩,
  ⟨path, [⟨t!"cube", none, some t!"1"⟩], [(t!"image", t!"uri(\"cube_1.jpg\")")]⟩,
  ⟨path, [⟨t!"cube", none, some t!"2"⟩], [(t!"image", t!"uri(\"cube_2.jpg\")")]⟩,
  ⟨path, [⟨t!"cube", none, some t!"3"⟩], [(t!"image", t!"uri(\"cube_3.jpg\")")]⟩,
  ⟨path, [⟨t!"cube", none, some t!"4"⟩], [(t!"image", t!"uri(\"cube_4.jpg\")")]⟩,
  ⟨path, [⟨t!"cube", none, some t!"5"⟩], [(t!"image", t!"uri(\"cube_5.jpg\")")]⟩,
  ⟨path, [⟨t!"field", some (t!"player", t!"you"), none⟩, ⟨t!"resign", none, none⟩], [(t!"x", t!"157"), (t!"y", t!"93"), (t!"x_offset", t!"20"), (t!"y_offset", t!"0")]⟩,
  ⟨path, [⟨t!"field", some (t!"player", t!"him"), none⟩, ⟨t!"resign", none, none⟩], [(t!"x", t!"25"), (t!"y", t!"93"), (t!"x_offset", t!"20"), (t!"y_offset", t!"0")]⟩,
  ⟨path, [⟨t!"resign", none, none⟩], [(t!"width", t!"25"), (t!"height", t!"25"), (t!"image", t!"uri(\"chip.png\"")]⟩,
  ⟨path, [⟨t!"chequer", none, none⟩], [(t!"max_count", t!"1"), (t!"hide_count", t!"True")]⟩,
  ⟨path, [⟨t!"point", some (t!"parity", t!"odd"), none⟩, ⟨t!"chequer", some (t!"player", t!"you"), some t!"1"⟩], [(t!"image", t!"uri(\"odd-white-1.jpg\")")]⟩,
  ⟨path, [⟨t!"point", some (t!"parity", t!"odd"), none⟩, ⟨t!"chequer", some (t!"player", t!"you"), some t!"2"⟩], [(t!"image", t!"uri(\"odd-white-2.jpg\")")]⟩,
  ⟨path, [⟨t!"point", some (t!"parity", t!"odd"), none⟩, ⟨t!"chequer", some (t!"player", t!"you"), some t!"3"⟩], [(t!"image", t!"uri(\"odd-white-3.jpg\")")]⟩,
  ⟨path, [⟨t!"point", some (t!"parity", t!"odd"), none⟩, ⟨t!"chequer", some (t!"player", t!"you"), some t!"4"⟩], [(t!"image", t!"uri(\"odd-white-4.jpg\")")]⟩,
  ⟨path, [⟨t!"point", some (t!"parity", t!"odd"), none⟩, ⟨t!"chequer", some (t!"player", t!"you"), some t!"5"⟩], [(t!"image", t!"uri(\"odd-white-5.jpg\")")]⟩]

theorem load4 : loadCss path lines4 = .ok rules4 := by decide +kernel

def rules5 : List Rule := [
  ⟨path, [⟨t!"point", some (t!"parity", t!"odd"), none⟩, ⟨t!"chequer", some (t!"player", t!"you"), some t!"6"⟩], [(t!"image", t!"uri(\"odd-white-6.jpg\")")]⟩,
  ⟨path, [⟨t!"point", some (t!"parity", t!"odd"), none⟩, ⟨t!"chequer", some (t!"player", t!"you"), some t!"7"⟩], [(t!"image", t!"uri(\"odd-white-7.jpg\")")]⟩,
  ⟨path, [⟨t!"point", some (t!"parity", t!"odd"), none⟩, ⟨t!"chequer", some (t!"player", t!"you"), some t!"8"⟩], [(t!"image", t!"uri(\"odd-white-8.jpg\")")]⟩,
  ⟨path, [⟨t!"point", some (t!"parity", t!"odd"), none⟩, ⟨t!"chequer", some (t!"player", t!"you"), some t!"9"⟩], [(t!"image", t!"uri(\"odd-white-9.jpg\")")]⟩,
  ⟨path, [⟨t!"point", some (t!"parity", t!"odd"), none⟩, ⟨t!"chequer", some (t!"player", t!"you"), some t!"10"⟩], [(t!"image", t!"uri(\"odd-white-10.jpg\")")]⟩,
  ⟨path, [⟨t!"point", some (t!"parity", t!"odd"), none⟩, ⟨t!"chequer", some (t!"player", t!"you"), some t!"11"⟩], [(t!"image", t!"uri(\"odd-white-11.jpg\")")]⟩,
  ⟨path, [⟨t!"point", some (t!"parity", t!"odd"), none⟩, ⟨t!"chequer", some (t!"player", t!"you"), some t!"12"⟩], [(t!"image", t!"uri(\"odd-white-12.jpg\")")]⟩,
  ⟨path, [⟨t!"point", some (t!"parity", t!"odd"), none⟩, ⟨t!"chequer", some (t!"player", t!"you"), some t!"13"⟩], [(t!"image", t!"uri(\"odd-white-13.jpg\")")]⟩,
  ⟨path, [⟨t!"point", some (t!"parity", t!"odd"), none⟩, ⟨t!"chequer", some (t!"player", t!"you"), some t!"14"⟩], [(t!"image", t!"uri(\"odd-white-14.jpg\")")]⟩,
  ⟨path, [⟨t!"point", some (t!"parity", t!"odd"), none⟩, ⟨t!"chequer", some (t!"player", t!"you"), some t!"15"⟩], [(t!"image", t!"uri(\"odd-white-15.jpg\")")]⟩,
  ⟨path, [⟨t!"point", some (t!"parity", t!"even"), none⟩, ⟨t!"chequer", some (t!"player", t!"you"), some t!"1"⟩], [(t!"image", t!"uri(\"even-white-1.jpg\")")]⟩,
  ⟨path, [⟨t!"point", some (t!"parity", t!"even"), none⟩, ⟨t!"chequer", some (t!"player", t!"you"), some t!"2"⟩], [(t!"image", t!"uri(\"even-white-2.jpg\")")]⟩,
  ⟨path, [⟨t!"point", some (t!"parity", t!"even"), none⟩, ⟨t!"chequer", some (t!"player", t!"you"), some t!"3"⟩], [(t!"image", t!"uri(\"even-white-3.jpg\")")]⟩,
  ⟨path, [⟨t!"point", some (t!"parity", t!"even"), none⟩, ⟨t!"chequer", some (t!"player", t!"you"), some t!"4"⟩], [(t!"image", t!"uri(\"even-white-4.jpg\")")]⟩,
  ⟨path, [⟨t!"point", some (t!"parity", t!"even"), none⟩, ⟨t!"chequer", some (t!"player", t!"you"), some t!"5"⟩], [(t!"image", t!"uri(\"even-white-5.jpg\")")]⟩,
  ⟨path, [⟨t!"point", some (t!"parity", t!"even"), none⟩, ⟨t!"chequer", some (t!"player", t!"you"), some t!"6"⟩], [(t!"image", t!"uri(\"even-white-6.jpg\")")]⟩,
  ⟨path, [⟨t!"point", some (t!"parity", t!"even"), none⟩, ⟨t!"chequer", some (t!"player", t!"you"), some t!"7"⟩], [(t!"image", t!"uri(\"even-white-7.jpg\")")]⟩,
  ⟨path, [⟨t!"point", some (t!"parity", t!"even"), none⟩, ⟨t!"chequer", some (t!"player", t!"you"), some t!"8"⟩], [(t!"image", t!"uri(\"even-white-8.jpg\")")]⟩,
  ⟨path, [⟨t!"point", some (t!"parity", t!"even"), none⟩, ⟨t!"chequer", some (t!"player", t!"you"), some t!"9"⟩], [(t!"image", t!"uri(\"even-white-9.jpg\")")]⟩,
  ⟨path, [⟨t!"point", some (t!"parity", t!"even"), none⟩, ⟨t!"chequer", some (t!"player", t!"you"), some t!"10"⟩], [(t!"image", t!"uri(\"even-white-10.jpg\")")]⟩,
  ⟨path, [⟨t!"point", some (t!"parity", t!"even"), none⟩, ⟨t!"chequer", some (t!"player", t!"you"), some t!"11"⟩], [(t!"image", t!"uri(\"even-white-11.jpg\")")]⟩,
  ⟨path, [⟨t!"point", some (t!"parity", t!"even"), none⟩, ⟨t!"chequer", some (t!"player", t!"you"), some t!"12"⟩], [(t!"image", t!"uri(\"even-white-12.jpg\")")]⟩,
  ⟨path, [⟨t!"point", some (t!"parity", t!"even"), none⟩, ⟨t!"chequer", some (t!"player", t!"you"), some t!"13"⟩], [(t!"image", t!"uri(\"even-white-13.jpg\")")]⟩,
  ⟨path, [⟨t!"point", some (t!"parity", t!"even"), none⟩, ⟨t!"chequer", some (t!"player", t!"you"), some t!"14"⟩], [(t!"image", t!"uri(\"even-white-14.jpg\")")]⟩,
  ⟨path, [⟨t!"point", some (t!"parity", t!"even"), none⟩, ⟨t!"chequer", some (t!"player", t!"you"), some t!"15"⟩], [(t!"image", t!"uri(\"even-white-15.jpg\")")]⟩,
  ⟨path, [⟨t!"point", some (t!"parity", t!"odd"), none⟩, ⟨t!"chequer", some (t!"player", t!"him"), some t!"1"⟩], [(t!"image", t!"uri(\"odd-green-1.jpg\")")]⟩,
  ⟨path, [⟨t!"point", some (t!"parity", t!"odd"), none⟩, ⟨t!"chequer", some (t!"player", t!"him"), some t!"2"⟩], [(t!"image", t!"uri(\"odd-green-2.jpg\")")]⟩,
  ⟨path, [⟨t!"point", some (t!"parity", t!"odd"), none⟩, ⟨t!"chequer", some (t!"player", t!"him"), some t!"3"⟩], [(t!"image", t!"uri(\"odd-green-3.jpg\")")]⟩,
  ⟨path, [⟨t!"point", some (t!"parity", t!"odd"), none⟩, ⟨t!"chequer", some (t!"player", t!"him"), some t!"4"⟩], [(t!"image", t!"uri(\"odd-green-4.jpg\")")]⟩,
  ⟨path, [⟨t!"point", some (t!"parity", t!"odd"), none⟩, ⟨t!"chequer", some (t!"player", t!"him"), some t!"5"⟩], [(t!"image", t!"uri(\"odd-green-5.jpg\")")]⟩]

theorem load5 : loadCss path lines5 = .ok rules5 := by decide +kernel

def rules6 : List Rule := [
  ⟨path, [⟨t!"point", some (t!"parity", t!"odd"), none⟩, ⟨t!"chequer", some (t!"player", t!"him"), some t!"6"⟩], [(t!"image", t!"uri(\"odd-green-6.jpg\")")]⟩,
  ⟨path, [⟨t!"point", some (t!"parity", t!"odd"), none⟩, ⟨t!"chequer", some (t!"player", t!"him"), some t!"7"⟩], [(t!"image", t!"uri(\"odd-green-7.jpg\")")]⟩,
  ⟨path, [⟨t!"point", some (t!"parity", t!"odd"), none⟩, ⟨t!"chequer", some (t!"player", t!"him"), some t!"8"⟩], [(t!"image", t!"uri(\"odd-green-8.jpg\")")]⟩,
  ⟨path, [⟨t!"point", some (t!"parity", t!"odd"), none⟩, ⟨t!"chequer", some (t!"player", t!"him"), some t!"9"⟩], [(t!"image", t!"uri(\"odd-green-9.jpg\")")]⟩,
  ⟨path, [⟨t!"point", some (t!"parity", t!"odd"), none⟩, ⟨t!"chequer", some (t!"player", t!"him"), some t!"10"⟩], [(t!"image", t!"uri(\"odd-green-10.jpg\")")]⟩,
  ⟨path, [⟨t!"point", some (t!"parity", t!"odd"), none⟩, ⟨t!"chequer", some (t!"player", t!"him"), some t!"11"⟩], [(t!"image", t!"uri(\"odd-green-11.jpg\")")]⟩,
  ⟨path, [⟨t!"point", some (t!"parity", t!"odd"), none⟩, ⟨t!"chequer", some (t!"player", t!"him"), some t!"12"⟩], [(t!"image", t!"uri(\"odd-green-12.jpg\")")]⟩,
  ⟨path, [⟨t!"point", some (t!"parity", t!"odd"), none⟩, ⟨t!"chequer", some (t!"player", t!"him"), some t!"13"⟩], [(t!"image", t!"uri(\"odd-green-13.jpg\")")]⟩,
  ⟨path, [⟨t!"point", some (t!"parity", t!"odd"), none⟩, ⟨t!"chequer", some (t!"player", t!"him"), some t!"14"⟩], [(t!"image", t!"uri(\"odd-green-14.jpg\")")]⟩,
  ⟨path, [⟨t!"point", some (t!"parity", t!"odd"), none⟩, ⟨t!"chequer", some (t!"player", t!"him"), some t!"15"⟩], [(t!"image", t!"uri(\"odd-green-15.jpg\")")]⟩,
  ⟨path, [⟨t!"point", some (t!"parity", t!"even"), none⟩, ⟨t!"chequer", some (t!"player", t!"him"), some t!"1"⟩], [(t!"image", t!"uri(\"even-green-1.jpg\")")]⟩,
  ⟨path, [⟨t!"point", some (t!"parity", t!"even"), none⟩, ⟨t!"chequer", some (t!"player", t!"him"), some t!"2"⟩], [(t!"image", t!"uri(\"even-green-2.jpg\")")]⟩,
  ⟨path, [⟨t!"point", some (t!"parity", t!"even"), none⟩, ⟨t!"chequer", some (t!"player", t!"him"), some t!"3"⟩], [(t!"image", t!"uri(\"even-green-3.jpg\")")]⟩,
  ⟨path, [⟨t!"point", some (t!"parity", t!"even"), none⟩, ⟨t!"chequer", some (t!"player", t!"him"), some t!"4"⟩], [(t!"image", t!"uri(\"even-green-4.jpg\")")]⟩,
  ⟨path, [⟨t!"point", some (t!"parity", t!"even"), none⟩, ⟨t!"chequer", some (t!"player", t!"him"), some t!"5"⟩], [(t!"image", t!"uri(\"even-green-5.jpg\")")]⟩,
  ⟨path, [⟨t!"point", some (t!"parity", t!"even"), none⟩, ⟨t!"chequer", some (t!"player", t!"him"), some t!"6"⟩], [(t!"image", t!"uri(\"even-green-6.jpg\")")]⟩,
  ⟨path, [⟨t!"point", some (t!"parity", t!"even"), none⟩, ⟨t!"chequer", some (t!"player", t!"him"), some t!"7"⟩], [(t!"image", t!"uri(\"even-green-7.jpg\")")]⟩,
  ⟨path, [⟨t!"point", some (t!"parity", t!"even"), none⟩, ⟨t!"chequer", some (t!"player", t!"him"), some t!"8"⟩], [(t!"image", t!"uri(\"even-green-8.jpg\")")]⟩,
  ⟨path, [⟨t!"point", some (t!"parity", t!"even"), none⟩, ⟨t!"chequer", some (t!"player", t!"him"), some t!"9"⟩], [(t!"image", t!"uri(\"even-green-9.jpg\")")]⟩,
  ⟨path, [⟨t!"point", some (t!"parity", t!"even"), none⟩, ⟨t!"chequer", some (t!"player", t!"him"), some t!"10"⟩], [(t!"image", t!"uri(\"even-green-10.jpg\")")]⟩,
  ⟨path, [⟨t!"point", some (t!"parity", t!"even"), none⟩, ⟨t!"chequer", some (t!"player", t!"him"), some t!"11"⟩], [(t!"image", t!"uri(\"even-green-11.jpg\")")]⟩,
  ⟨path, [⟨t!"point", some (t!"parity", t!"even"), none⟩, ⟨t!"chequer", some (t!"player", t!"him"), some t!"12"⟩], [(t!"image", t!"uri(\"even-green-12.jpg\")")]⟩,
  ⟨path, [⟨t!"point", some (t!"parity", t!"even"), none⟩, ⟨t!"chequer", some (t!"player", t!"him"), some t!"13"⟩], [(t!"image", t!"uri(\"even-green-13.jpg\")")]⟩,
  ⟨path, [⟨t!"point", some (t!"parity", t!"even"), none⟩, ⟨t!"chequer", some (t!"player", t!"him"), some t!"14"⟩], [(t!"image", t!"uri(\"even-green-14.jpg\")")]⟩,
  ⟨path, [⟨t!"point", some (t!"parity", t!"even"), none⟩, ⟨t!"chequer", some (t!"player", t!"him"), some t!"15"⟩], [(t!"image", t!"uri(\"even-green-15.jpg\")")]⟩,
  ⟨path, [⟨t!"bar", some (t!"player", t!"him"), none⟩, ⟨t!"chequer", some (t!"player", t!"him"), some t!"1"⟩], [(t!"image", t!"uri(\"bar-green-1.jpg\")")]⟩,
  ⟨path, [⟨t!"bar", some (t!"player", t!"him"), none⟩, ⟨t!"chequer", some (t!"player", t!"him"), some t!"2"⟩], [(t!"image", t!"uri(\"bar-green-2.jpg\")")]⟩]

theorem load6 : loadCss path lines6 = .ok rules6 := by decide +kernel

def rules7 : List Rule := [
  ⟨path, [⟨t!"bar", some (t!"player", t!"him"), none⟩, ⟨t!"chequer", some (t!"player", t!"him"), some t!"3"⟩], [(t!"image", t!"uri(\"bar-green-3.jpg\")")]⟩,
  ⟨path, [⟨t!"bar", some (t!"player", t!"him"), none⟩, ⟨t!"chequer", some (t!"player", t!"him"), some t!"4"⟩], [(t!"image", t!"uri(\"bar-green-4.jpg\")")]⟩,
  ⟨path, [⟨t!"bar", some (t!"player", t!"him"), none⟩, ⟨t!"chequer", some (t!"player", t!"him"), some t!"5"⟩], [(t!"image", t!"uri(\"bar-green-5.jpg\")")]⟩,
  ⟨path, [⟨t!"bar", some (t!"player", t!"him"), none⟩, ⟨t!"chequer", some (t!"player", t!"him"), some t!"6"⟩], [(t!"image", t!"uri(\"bar-green-6.jpg\")")]⟩,
  ⟨path, [⟨t!"bar", some (t!"player", t!"him"), none⟩, ⟨t!"chequer", some (t!"player", t!"him"), some t!"7"⟩], [(t!"image", t!"uri(\"bar-green-7.jpg\")")]⟩,
  ⟨path, [⟨t!"bar", some (t!"player", t!"him"), none⟩, ⟨t!"chequer", some (t!"player", t!"him"), some t!"8"⟩], [(t!"image", t!"uri(\"bar-green-8.jpg\")")]⟩,
  ⟨path, [⟨t!"bar", some (t!"player", t!"him"), none⟩, ⟨t!"chequer", some (t!"player", t!"him"), some t!"9"⟩], [(t!"image", t!"uri(\"bar-green-9.jpg\")")]⟩,
  ⟨path, [⟨t!"bar", some (t!"player", t!"him"), none⟩, ⟨t!"chequer", some (t!"player", t!"him"), some t!"10"⟩], [(t!"image", t!"uri(\"bar-green-10.jpg\")")]⟩,
  ⟨path, [⟨t!"bar", some (t!"player", t!"him"), none⟩, ⟨t!"chequer", some (t!"player", t!"him"), some t!"11"⟩], [(t!"image", t!"uri(\"bar-green-11.jpg\")")]⟩,
  ⟨path, [⟨t!"bar", some (t!"player", t!"him"), none⟩, ⟨t!"chequer", some (t!"player", t!"him"), some t!"12"⟩], [(t!"image", t!"uri(\"bar-green-12.jpg\")")]⟩,
  ⟨path, [⟨t!"bar", some (t!"player", t!"him"), none⟩, ⟨t!"chequer", some (t!"player", t!"him"), some t!"13"⟩], [(t!"image", t!"uri(\"bar-green-13.jpg\")")]⟩,
  ⟨path, [⟨t!"bar", some (t!"player", t!"him"), none⟩, ⟨t!"chequer", some (t!"player", t!"him"), some t!"14"⟩], [(t!"image", t!"uri(\"bar-green-14.jpg\")")]⟩,
  ⟨path, [⟨t!"bar", some (t!"player", t!"him"), none⟩, ⟨t!"chequer", some (t!"player", t!"him"), some t!"15"⟩], [(t!"image", t!"uri(\"bar-green-15.jpg\")")]⟩,
  ⟨path, [⟨t!"bar", some (t!"player", t!"you"), none⟩, ⟨t!"chequer", some (t!"player", t!"you"), some t!"1"⟩], [(t!"image", t!"uri(\"bar-white-1.jpg\")")]⟩,
  ⟨path, [⟨t!"bar", some (t!"player", t!"you"), none⟩, ⟨t!"chequer", some (t!"player", t!"you"), some t!"2"⟩], [(t!"image", t!"uri(\"bar-white-2.jpg\")")]⟩,
  ⟨path, [⟨t!"bar", some (t!"player", t!"you"), none⟩, ⟨t!"chequer", some (t!"player", t!"you"), some t!"3"⟩], [(t!"image", t!"uri(\"bar-white-3.jpg\")")]⟩,
  ⟨path, [⟨t!"bar", some (t!"player", t!"you"), none⟩, ⟨t!"chequer", some (t!"player", t!"you"), some t!"4"⟩], [(t!"image", t!"uri(\"bar-white-4.jpg\")")]⟩,
  ⟨path, [⟨t!"bar", some (t!"player", t!"you"), none⟩, ⟨t!"chequer", some (t!"player", t!"you"), some t!"5"⟩], [(t!"image", t!"uri(\"bar-white-5.jpg\")")]⟩,
  ⟨path, [⟨t!"bar", some (t!"player", t!"you"), none⟩, ⟨t!"chequer", some (t!"player", t!"you"), some t!"6"⟩], [(t!"image", t!"uri(\"bar-white-6.jpg\")")]⟩,
  ⟨path, [⟨t!"bar", some (t!"player", t!"you"), none⟩, ⟨t!"chequer", some (t!"player", t!"you"), some t!"7"⟩], [(t!"image", t!"uri(\"bar-white-7.jpg\")")]⟩,
  ⟨path, [⟨t!"bar", some (t!"player", t!"you"), none⟩, ⟨t!"chequer", some (t!"player", t!"you"), some t!"8"⟩], [(t!"image", t!"uri(\"bar-white-8.jpg\")")]⟩,
  ⟨path, [⟨t!"bar", some (t!"player", t!"you"), none⟩, ⟨t!"chequer", some (t!"player", t!"you"), some t!"9"⟩], [(t!"image", t!"uri(\"bar-white-9.jpg\")")]⟩,
  ⟨path, [⟨t!"bar", some (t!"player", t!"you"), none⟩, ⟨t!"chequer", some (t!"player", t!"you"), some t!"10"⟩], [(t!"image", t!"uri(\"bar-white-10.jpg\")")]⟩,
  ⟨path, [⟨t!"bar", some (t!"player", t!"you"), none⟩, ⟨t!"chequer", some (t!"player", t!"you"), some t!"11"⟩], [(t!"image", t!"uri(\"bar-white-11.jpg\")")]⟩,
  ⟨path, [⟨t!"bar", some (t!"player", t!"you"), none⟩, ⟨t!"chequer", some (t!"player", t!"you"), some t!"12"⟩], [(t!"image", t!"uri(\"bar-white-12.jpg\")")]⟩,
  ⟨path, [⟨t!"bar", some (t!"player", t!"you"), none⟩, ⟨t!"chequer", some (t!"player", t!"you"), some t!"13"⟩], [(t!"image", t!"uri(\"bar-white-13.jpg\")")]⟩,
  ⟨path, [⟨t!"bar", some (t!"player", t!"you"), none⟩, ⟨t!"chequer", some (t!"player", t!"you"), some t!"14"⟩], [(t!"image", t!"uri(\"bar-white-14.jpg\")")]⟩,
  ⟨path, [⟨t!"bar", some (t!"player", t!"you"), none⟩, ⟨t!"chequer", some (t!"player", t!"you"), some t!"15"⟩], [(t!"image", t!"uri(\"bar-white-15.jpg\")")]⟩]

theorem load7 : loadCss path lines7 = .ok rules7 := by decide +kernel

/-- The rules of the style. -/
def rules : List Rule := rules0 ++ (rules1 ++ (rules2 ++ (rules3 ++ (rules4 ++ (rules5 ++ (rules6 ++ (rules7)))))))

theorem load : loadCss path lines = .ok rules := loadCss_append load0 (loadCss_append load1 (loadCss_append load2 (loadCss_append load3 (loadCss_append load4 (loadCss_append load5 (loadCss_append load6 (load7)))))))

theorem ready : themeReady rules = true := by decide +kernel

theorem seen : themeSeen rules = true := by decide +kernel

end Bglib.Img.Safari
