import Verif.Spec.Layout
import Verif.Spec.Theme
/-
The plain styles that come with the library, with their colours, read off the style sheets
bglib/image/resource/*/default.css by hand.
-/
namespace Bglib.Spec
open Bglib Bglib.Img

def deutsche : Palette where
  board := t!"red"
  sheet := t!"#181818"
  position := t!"#181818"
  frame := t!"#083008"
  holder := t!"#083008"
  home := t!"#083008"
  bar := t!"#083008"
  action := t!"#181818"
  actionInk := (t!"#d8c810", t!"#d01020")
  lengthInk := t!"#cccccc"
  crawfordInk := t!"#cccccc"
  scoreInk := (t!"#d8c810", t!"#d01020")
  fieldInk := t!"#383838"
  odd := t!"#080808"
  even := t!"#383838"
  chequer := (t!"#d8c810", t!"#d01020")
  die := (t!"#d8c810", t!"#d01020")
  dieInk := (t!"black", t!"black")
  cube := t!"#cccccc"
  cubeInk := t!"black"
  resignInk := t!"gold"
  font := t!"bglib/image/resource/deutsche/ActionManShadedItalic.ttf"

def flower : Palette where
  board := t!"red"
  sheet := t!"#184a29"
  position := t!"#184a28"
  frame := t!"#583017"
  holder := t!"#583017"
  home := t!"#583017"
  bar := t!"#583017"
  action := t!"#184a29"
  actionInk := (t!"#e0d010", t!"#b41d1f")
  lengthInk := t!"#448c6f"
  crawfordInk := t!"#448c6f"
  scoreInk := (t!"#e0d010", t!"#b41d1f")
  fieldInk := t!"#285a39"
  odd := t!"#083a18"
  even := t!"#285a39"
  chequer := (t!"#e0d010", t!"#b41d1f")
  die := (t!"#e0d010", t!"#b41d1f")
  dieInk := (t!"#b41d1f", t!"#e0d010")
  cube := t!"#107010"
  cubeInk := t!"#448c6f"
  resignInk := t!"gold"
  font := t!"bglib/image/resource/flower/Advert-Italic.ttf"

def kotobuki : Palette where
  board := t!"red"
  sheet := t!"#b0b0b0"
  position := t!"#b0b0b0"
  frame := t!"#a09797"
  holder := t!"#a09797"
  home := t!"#a09797"
  bar := t!"#a09797"
  action := t!"#b0b0b0"
  actionInk := (t!"#f0f0f0", t!"#c02020")
  lengthInk := t!"black"
  crawfordInk := t!"black"
  scoreInk := (t!"#f0f0f0", t!"#c02020")
  fieldInk := t!"#c5c5c5"
  odd := t!"#c5c5c5"
  even := t!"#f06060"
  chequer := (t!"#f0f0f0", t!"#c02020")
  die := (t!"#f0f0f0", t!"#c02020")
  dieInk := (t!"#c02020", t!"#f0f0f0")
  cube := t!"white"
  cubeInk := t!"black"
  resignInk := t!"gold"
  font := t!"bglib/image/resource/kotobuki/DejaVuLGCSans-Bold.ttf"

def minimal : Palette where
  board := t!"#596580"
  sheet := t!"#625e5d"
  position := t!"#625e5d"
  frame := t!"#453f3d"
  holder := t!"#453f3d"
  home := t!"#453f3d"
  bar := t!"#453f3d"
  action := t!"#625e5d"
  actionInk := (t!"#3cb7ff", t!"#fd4993")
  lengthInk := t!"white"
  crawfordInk := t!"white"
  scoreInk := (t!"#3ca7e4", t!"#fd4993")
  fieldInk := t!"#7a797b"
  odd := t!"#7a797b"
  even := t!"#4a495a"
  chequer := (t!"#3ca7e4", t!"#fd4993")
  die := (t!"#3ca7e4", t!"#fd4993")
  dieInk := (t!"white", t!"white")
  cube := t!"white"
  cubeInk := t!"black"
  resignInk := t!"gold"
  font := t!"bglib/image/resource/minimal/Alien-Encounters-Bold-Italic.ttf"

def nature : Palette where
  board := t!"red"
  sheet := t!"#184a29"
  position := t!"#184a28"
  frame := t!"#583017"
  holder := t!"#583017"
  home := t!"#583017"
  bar := t!"#583017"
  action := t!"#184a29"
  actionInk := (t!"#e0e0e0", t!"#5078b8")
  lengthInk := t!"black"
  crawfordInk := t!"black"
  scoreInk := (t!"#e0e0e0", t!"#5078b8")
  fieldInk := t!"#285a38"
  odd := t!"#083a18"
  even := t!"#285a38"
  chequer := (t!"#e0e0e0", t!"#5078b8")
  die := (t!"#e0e0e0", t!"#5078b8")
  dieInk := (t!"#5078b8", t!"#e0e0e0")
  cube := t!"white"
  cubeInk := t!"black"
  resignInk := t!"gold"
  font := t!"bglib/image/resource/nature/DejaVuLGCSans-Bold.ttf"

def neon : Palette where
  board := t!"red"
  sheet := t!"#ee40d6"
  position := t!"#ee40d5"
  frame := t!"#c630e0"
  holder := t!"#c630e0"
  home := t!"#c630e0"
  bar := t!"#c630e0"
  action := t!"#ee40d6"
  actionInk := (t!"#e0d010", t!"#b41d1f")
  lengthInk := t!"#345c4f"
  crawfordInk := t!"#345c4f"
  scoreInk := (t!"#e0d010", t!"#b41d1f")
  fieldInk := t!"#e670d8"
  odd := t!"#e026b6"
  even := t!"#e670d8"
  chequer := (t!"#e0d010", t!"#b41d1f")
  die := (t!"#e0d010", t!"#b41d1f")
  dieInk := (t!"#b41d1f", t!"#e0d010")
  cube := t!"#649c7f"
  cubeInk := t!"#345c4f"
  resignInk := t!"gold"
  font := t!"bglib/image/resource/neon/Cake.ttf"

/-- Path, lines and colours. -/
def plainStyles : List (Text × List Text × Palette) :=
  [(Deutsche.path, Deutsche.lines, deutsche),
   (Flower.path, Flower.lines, flower),
   (Kotobuki.path, Kotobuki.lines, kotobuki),
   (Minimal.path, Minimal.lines, minimal),
   (Nature.path, Nature.lines, nature),
   (Neon.path, Neon.lines, neon)]

end Bglib.Spec
