import Verif.Model.Mag
import Verif.Spec.Palette
/-
The size of a picture (C69).
-/
namespace Bglib.Spec
open Bglib Bglib.Img

/-- A size that can be asked for. -/
def SizeOk (n : Int) : Prop := 0 < n ∧ n ≤ 2 ^ 25

/-- A width (or height) `w` multiplied by the rounded quotient `b / w`, rounded, does not exceed `b`. -/
def Sharp (w b : Int) : Prop := fl (w * fl (b / w)) ≤ b

instance (w b : Int) : Decidable (Sharp w b) := inferInstanceAs (Decidable (_ ≤ _))

/-- The width is the tighter side (or the two are equally tight): `bw / w ≤ bh / h`. -/
def WidthRules (w h bw bh : Int) : Prop := bw * h ≤ bh * w

instance (w h bw bh : Int) : Decidable (WidthRules w h bw bh) := inferInstanceAs (Decidable (_ ≤ _))

/-- The tighter side can be filled; when both are equally tight, both can. -/
def SharpSize (w h bw bh : Int) : Prop :=
  (WidthRules w h bw bh → Sharp w bw) ∧ (WidthRules h w bh bw → Sharp h bh)

instance (w h bw bh : Int) : Decidable (SharpSize w h bw bh) := inferInstanceAs (Decidable (_ ∧ _))

/-- The magnification that fills the tighter side. -/
def fitting (w h bw bh : Int) : Rat := if WidthRules w h bw bh then fl (bw / w) else fl (bh / h)

/-- The size of the board in each shipped style, by the path of its style sheet. -/
def boardSize (css : Text) : Int × Int :=
  if css = Matrix.path then (1000, 800) else if css = Safari.path then (341, 232) else (341, 262)

/-- A box lies in the picture. -/
def BoxFits (bw bh : Int) (p s : Int × Int) : Prop := 0 ≤ p.1 ∧ 0 ≤ p.2 ∧ p.1 + s.1 ≤ bw ∧ p.2 + s.2 ≤ bh

/-- What an operation draws lies in the picture; for a text, its box.  An ellipse includes the pixels of its second
corner, a polygon those of its points. -/
def OpFits (bw bh : Int) : Op → Prop
  | .text p s _ _ _ => BoxFits bw bh p s
  | .ellipse p s _ => BoxFits bw bh p (s.1 + 1, s.2 + 1)
  | .polygon pts _ => ∀ p ∈ pts, BoxFits bw bh p (1, 1)
  | .rect p s _ => BoxFits bw bh p s
  | .image _ s _ p => BoxFits bw bh p s

/-- The widths and heights up to 500 that are not sharp for the shipped boards. -/
def blunt (w : Int) : List Nat :=
  if w = 341 then
    [3, 6, 12, 24, 48, 49, 59, 96, 97, 98, 118, 119, 192, 193, 194, 195, 196, 197, 235, 236, 237, 238, 239, 384, 385,
     386, 387, 388, 389, 390, 391, 392, 393, 394, 469, 470, 471, 472, 473, 474, 475, 476, 477, 478, 479]
  else if w = 262 then [227, 323, 454]
  else if w = 232 then [15, 30, 60, 119, 120, 125, 233, 238, 240, 245, 250, 466, 471, 476, 480, 485, 490, 495, 500]
  else if w = 800 then
    [7, 14, 28, 55, 56, 109, 110, 111, 112, 218, 220, 222, 224, 243, 245, 247, 249, 411, 415, 419, 423, 436, 440, 444,
     448, 461, 465, 469, 473, 486, 490, 494, 498]
  else []

end Bglib.Spec
