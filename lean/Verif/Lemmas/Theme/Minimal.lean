import Verif.Model.Theme.Minimal
import Verif.Lemmas.Theme
/-
The rules read from the style sheet `bglib/image/resource/minimal/default.css`, and that they can draw every board.
-/
namespace Bglib.Img.Minimal
open Bglib Bglib.Img

set_option maxRecDepth 100000

def rules0 : List Rule := [
  ⟨path, [⟨t!"board", none, none⟩], [(t!"x", t!"0"), (t!"y", t!"0"), (t!"width", t!"341"), (t!"height", t!"262"), (t!"background", t!"#596580")]⟩,
  ⟨path, [⟨t!"board", none, none⟩], [(t!"font", t!"uri(\"Alien-Encounters-Bold-Italic.ttf\")")]⟩,
  ⟨path, [⟨t!"match", none, none⟩], [(t!"x", t!"291"), (t!"y", t!"0"), (t!"width", t!"50"), (t!"height", t!"232"), (t!"background", t!"#625e5d")]⟩,
  ⟨path, [⟨t!"length", none, none⟩], [(t!"x", t!"316"), (t!"y", t!"93"), (t!"width", t!"25"), (t!"height", t!"46"), (t!"color", t!"white")]⟩,
  ⟨path, [⟨t!"crawford", none, none⟩], [(t!"x", t!"291"), (t!"y", t!"93"), (t!"width", t!"25"), (t!"height", t!"46"), (t!"color", t!"white")]⟩,
  ⟨path, [⟨t!"score", none, none⟩], [(t!"width", t!"50"), (t!"height", t!"93")]⟩,
  ⟨path, [⟨t!"score", some (t!"player", t!"you"), none⟩], [(t!"x", t!"291"), (t!"y", t!"139"), (t!"color", t!"#3ca7e4")]⟩,
  ⟨path, [⟨t!"score", some (t!"player", t!"him"), none⟩], [(t!"x", t!"291"), (t!"y", t!"0"), (t!"color", t!"#fd4993")]⟩,
  ⟨path, [⟨t!"action", none, none⟩], [(t!"width", t!"341"), (t!"height", t!"30"), (t!"x", t!"0"), (t!"y", t!"232"), (t!"background", t!"#625e5d")]⟩,
  ⟨path, [⟨t!"action", some (t!"player", t!"you"), none⟩], [(t!"color", t!"#3cb7ff")]⟩,
  ⟨path, [⟨t!"action", some (t!"player", t!"him"), none⟩], [(t!"color", t!"#fd4993")]⟩,
  ⟨path, [⟨t!"player", none, none⟩], [(t!"width", t!"0"), (t!"height", t!"0")]⟩,
  ⟨path, [⟨t!"player", some (t!"player", t!"you"), none⟩], [(t!"x", t!"0"), (t!"y", t!"0")]⟩,
  ⟨path, [⟨t!"player", some (t!"player", t!"him"), none⟩], [(t!"x", t!"0"), (t!"y", t!"0")]⟩,
  ⟨path, [⟨t!"position", none, none⟩], [(t!"x", t!"0"), (t!"y", t!"0"), (t!"width", t!"291"), (t!"height", t!"232"), (t!"background", t!"#625e5d")]⟩,
  ⟨path, [⟨t!"point", none, none⟩], [(t!"width", t!"18"), (t!"height", t!"88")]⟩,
  ⟨path, [⟨t!"point", some (t!"parity", t!"odd"), none⟩], [(t!"color", t!"#7a797b")]⟩,
  ⟨path, [⟨t!"point", some (t!"parity", t!"even"), none⟩], [(t!"color", t!"#4a495a")]⟩,
  ⟨path, [⟨t!"point", none, some t!"1"⟩], [(t!"x", t!"248"), (t!"y", t!"139")]⟩,
  ⟨path, [⟨t!"point", none, some t!"2"⟩], [(t!"x", t!"230"), (t!"y", t!"139")]⟩,
  ⟨path, [⟨t!"point", none, some t!"3"⟩], [(t!"x", t!"212"), (t!"y", t!"139")]⟩,
  ⟨path, [⟨t!"point", none, some t!"4"⟩], [(t!"x", t!"194"), (t!"y", t!"139")]⟩,
  ⟨path, [⟨t!"point", none, some t!"5"⟩], [(t!"x", t!"176"), (t!"y", t!"139")]⟩,
  ⟨path, [⟨t!"point", none, some t!"6"⟩], [(t!"x", t!"158"), (t!"y", t!"139")]⟩,
  ⟨path, [⟨t!"point", none, some t!"7"⟩], [(t!"x", t!"115"), (t!"y", t!"139")]⟩,
  ⟨path, [⟨t!"point", none, some t!"8"⟩], [(t!"x", t!"97"), (t!"y", t!"139")]⟩]

theorem load0 : loadCss path lines0 = .ok rules0 := by decide +kernel

def rules1 : List Rule := [
  ⟨path, [⟨t!"point", none, some t!"9"⟩], [(t!"x", t!"79"), (t!"y", t!"139")]⟩,
  ⟨path, [⟨t!"point", none, some t!"10"⟩], [(t!"x", t!"61"), (t!"y", t!"139")]⟩,
  ⟨path, [⟨t!"point", none, some t!"11"⟩], [(t!"x", t!"43"), (t!"y", t!"139")]⟩,
  ⟨path, [⟨t!"point", none, some t!"12"⟩], [(t!"x", t!"25"), (t!"y", t!"139")]⟩,
  ⟨path, [⟨t!"point", none, some t!"13"⟩], [(t!"x", t!"25"), (t!"y", t!"5"), (t!"flip", t!"True")]⟩,
  ⟨path, [⟨t!"point", none, some t!"14"⟩], [(t!"x", t!"43"), (t!"y", t!"5"), (t!"flip", t!"True")]⟩,
  ⟨path, [⟨t!"point", none, some t!"15"⟩], [(t!"x", t!"61"), (t!"y", t!"5"), (t!"flip", t!"True")]⟩,
  ⟨path, [⟨t!"point", none, some t!"16"⟩], [(t!"x", t!"79"), (t!"y", t!"5"), (t!"flip", t!"True")]⟩,
  ⟨path, [⟨t!"point", none, some t!"17"⟩], [(t!"x", t!"97"), (t!"y", t!"5"), (t!"flip", t!"True")]⟩,
  ⟨path, [⟨t!"point", none, some t!"18"⟩], [(t!"x", t!"115"), (t!"y", t!"5"), (t!"flip", t!"True")]⟩,
  ⟨path, [⟨t!"point", none, some t!"19"⟩], [(t!"x", t!"158"), (t!"y", t!"5"), (t!"flip", t!"True")]⟩,
  ⟨path, [⟨t!"point", none, some t!"20"⟩], [(t!"x", t!"176"), (t!"y", t!"5"), (t!"flip", t!"True")]⟩,
  ⟨path, [⟨t!"point", none, some t!"21"⟩], [(t!"x", t!"194"), (t!"y", t!"5"), (t!"flip", t!"True")]⟩,
  ⟨path, [⟨t!"point", none, some t!"22"⟩], [(t!"x", t!"212"), (t!"y", t!"5"), (t!"flip", t!"True")]⟩,
  ⟨path, [⟨t!"point", none, some t!"23"⟩], [(t!"x", t!"230"), (t!"y", t!"5"), (t!"flip", t!"True")]⟩,
  ⟨path, [⟨t!"point", none, some t!"24"⟩], [(t!"x", t!"248"), (t!"y", t!"5"), (t!"flip", t!"True")]⟩,
  ⟨path, [⟨t!"bar", none, none⟩], [(t!"width", t!"25"), (t!"height", t!"112"), (t!"background", t!"#453f3d")]⟩,
  ⟨path, [⟨t!"bar", some (t!"player", t!"you"), none⟩], [(t!"x", t!"133"), (t!"y", t!"116")]⟩,
  ⟨path, [⟨t!"bar", some (t!"player", t!"him"), none⟩], [(t!"x", t!"133"), (t!"y", t!"5")]⟩,
  ⟨path, [⟨t!"cubeholder", none, none⟩], [(t!"width", t!"25"), (t!"height", t!"224"), (t!"x", t!"0"), (t!"y", t!"5"), (t!"background", t!"#453f3d")]⟩,
  ⟨path, [⟨t!"home", none, none⟩], [(t!"width", t!"25"), (t!"height", t!"112")]⟩,
  ⟨path, [⟨t!"home", some (t!"player", t!"you"), none⟩], [(t!"x", t!"266"), (t!"y", t!"116"), (t!"background", t!"#453f3d")]⟩,
  ⟨path, [⟨t!"home", some (t!"player", t!"him"), none⟩], [(t!"x", t!"266"), (t!"y", t!"5"), (t!"background", t!"#453f3d")]⟩,
  ⟨path, [⟨t!"field", none, none⟩], [(t!"width", t!"108"), (t!"height", t!"46"), (t!"text", t!"Backgammonbase"), (t!"color", t!"#7a797b")]⟩,
  ⟨path, [⟨t!"field", none, none⟩], [(t!"font", t!"uri(\"Alien-Encounters-Bold-Italic.ttf\")")]⟩,
  ⟨path, [⟨t!"field", some (t!"player", t!"you"), none⟩], [(t!"x", t!"158"), (t!"y", t!"93")]⟩]

theorem load1 : loadCss path lines1 = .ok rules1 := by decide +kernel

def rules2 : List Rule := [
  ⟨path, [⟨t!"field", some (t!"player", t!"him"), none⟩], [(t!"x", t!"25"), (t!"y", t!"93")]⟩,
  ⟨path, [⟨t!"field", some (t!"player", t!"you"), none⟩, ⟨t!"die", some (t!"id", t!"left"), none⟩], [(t!"x", t!"176"), (t!"y", t!"95"), (t!"background", t!"#3ca7e4")]⟩,
  ⟨path, [⟨t!"field", some (t!"player", t!"you"), none⟩, ⟨t!"die", some (t!"id", t!"right"), none⟩], [(t!"x", t!"204"), (t!"y", t!"95"), (t!"background", t!"#3ca7e4")]⟩,
  ⟨path, [⟨t!"field", some (t!"player", t!"him"), none⟩, ⟨t!"die", some (t!"id", t!"left"), none⟩], [(t!"x", t!"43"), (t!"y", t!"95"), (t!"background", t!"#fd4993")]⟩,
  ⟨path, [⟨t!"field", some (t!"player", t!"him"), none⟩, ⟨t!"die", some (t!"id", t!"right"), none⟩], [(t!"x", t!"71"), (t!"y", t!"95"), (t!"background", t!"#fd4993")]⟩,
  ⟨path, [⟨t!"die", none, none⟩], [(t!"width", t!"16"), (t!"height", t!"16"), (t!"color", t!"white"), (t!"diestyle", t!"dot"), (t!"eyesize", t!"3")]⟩,
  ⟨path, [⟨t!"cube", none, none⟩], [(t!"width", t!"25"), (t!"height", t!"25"), (t!"background", t!"white"), (t!"color", t!"black"), (t!"initialCube", t!"64")]⟩,
  ⟨path, [⟨t!"cubeholder", none, none⟩, ⟨t!"cube", none, none⟩], [(t!"x", t!"0"), (t!"y", t!"105")]⟩,
  ⟨path, [⟨t!"home", some (t!"player", t!"you"), none⟩, ⟨t!"cube", none, none⟩], [(t!"x", t!"0"), (t!"y", t!"197")]⟩,
  ⟨path, [⟨t!"home", some (t!"player", t!"him"), none⟩, ⟨t!"cube", none, none⟩], [(t!"x", t!"0"), (t!"y", t!"5")]⟩,
  ⟨path, [⟨t!"field", some (t!"player", t!"you"), none⟩, ⟨t!"cube", none, none⟩], [(t!"x", t!"50"), (t!"y", t!"100")]⟩,
  ⟨path, [⟨t!"field", some (t!"player", t!"him"), none⟩, ⟨t!"cube", none, none⟩], [(t!"x", t!"180"), (t!"y", t!"100")]⟩,
  ⟨path, [⟨t!"cubeholder", none, none⟩, ⟨t!"cube", none, none⟩], [(t!"x", t!"0"), (t!"y", t!"105")]⟩,
  ⟨path, [⟨t!"field", some (t!"player", t!"you"), none⟩, ⟨t!"resign", none, none⟩], [(t!"x", t!"157"), (t!"y", t!"93")]⟩,
  ⟨path, [⟨t!"field", some (t!"player", t!"him"), none⟩, ⟨t!"resign", none, none⟩], [(t!"x", t!"25"), (t!"y", t!"93")]⟩,
  ⟨path, [⟨t!"resign", none, none⟩], [(t!"width", t!"100"), (t!"height", t!"46"), (t!"color", t!"gold")]⟩,
  ⟨path, [⟨t!"top_frame", none, none⟩], [(t!"x", t!"0"), (t!"y", t!"0"), (t!"height", t!"5"), (t!"width", t!"291"), (t!"background", t!"#453f3d")]⟩,
  ⟨path, [⟨t!"bottom_frame", none, none⟩], [(t!"x", t!"0"), (t!"y", t!"227"), (t!"height", t!"5"), (t!"width", t!"291"), (t!"background", t!"#453f3d")]⟩,
  ⟨path, [⟨t!"chequer", none, none⟩], [(t!"width", t!"16"), (t!"height", t!"16"), (t!"y", t!"210"), (t!"x_offset", t!"0"), (t!"y_offset", t!"-18"), (t!"max_count", t!"5")]⟩,
  ⟨path, [⟨t!"point", some (t!"flip", t!"True"), none⟩, ⟨t!"chequer", none, none⟩], [(t!"y", t!"6"), (t!"y_offset", t!"18")]⟩,
  ⟨path, [⟨t!"home", some (t!"player", t!"him"), none⟩, ⟨t!"chequer", none, none⟩], [(t!"x", t!"269"), (t!"y", t!"90"), (t!"y_offset", t!"-18")]⟩,
  ⟨path, [⟨t!"home", some (t!"player", t!"you"), none⟩, ⟨t!"chequer", none, none⟩], [(t!"x", t!"269"), (t!"y", t!"125"), (t!"y_offset", t!"18")]⟩,
  ⟨path, [⟨t!"bar", some (t!"player", t!"him"), none⟩, ⟨t!"chequer", none, none⟩], [(t!"x", t!"137"), (t!"y", t!"80"), (t!"y_offset", t!"-18"), (t!"max_count", t!"4")]⟩,
  ⟨path, [⟨t!"bar", some (t!"player", t!"you"), none⟩, ⟨t!"chequer", none, none⟩], [(t!"x", t!"137"), (t!"y", t!"135"), (t!"y_offset", t!"18"), (t!"max_count", t!"4")]⟩,
  ⟨path, [⟨t!"chequer", some (t!"player", t!"you"), none⟩], [(t!"color", t!"#3ca7e4")]⟩,
  ⟨path, [⟨t!"chequer", some (t!"player", t!"him"), none⟩], [(t!"color", t!"#fd4993")]⟩]

theorem load2 : loadCss path lines2 = .ok rules2 := by decide +kernel

def rules3 : List Rule := [
  ]

theorem load3 : loadCss path lines3 = .ok rules3 := by decide +kernel

/-- The rules of the style. -/
def rules : List Rule := rules0 ++ (rules1 ++ (rules2 ++ (rules3)))

theorem load : loadCss path lines = .ok rules := loadCss_append load0 (loadCss_append load1 (loadCss_append load2 (load3)))

theorem ready : themeReady rules = true := by decide +kernel

theorem seen : themeSeen rules = true := by decide +kernel

end Bglib.Img.Minimal
