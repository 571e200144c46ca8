import Verif.Spec.Layout
/-
The pictures drawn with the styles safari and matrix, written out (C68).  They are made of images.  Nothing here
mentions style sheets, elements or trees.
-/
namespace Bglib.Spec
open Bglib Bglib.Img

/-- An image in a box. -/
def Ink.image (k : Ink) (x y w h : Int) (flip : Bool) (file : Text) : Op :=
  .image file (k.scale w, k.scale h) flip (k.scale x, k.scale y)

/-! ### safari -/

/-- The files of the style safari. -/
def safari (name : Text) : Text := t!"bglib/image/resource/safari/" ++ (name ++ t!".jpg")

/-- A numbered image; there is none for other numbers. -/
def Ink.card (k : Ink) (x y w h : Int) (flip : Bool) (name : Text) (lo hi : Nat) (n : Int) : List Op :=
  if (lo : Int) ≤ n ∧ n ≤ hi then [k.image x y w h flip (safari (name ++ pyStr n))] else []

/-- A point with the chequers of both players; the upper ones stand on their heads. -/
def Ink.safariPoint (k : Ink) (i : Nat) (you him : Int) : List Op :=
  let y := if i ≤ 12 then 139 else 5
  let flip := decide (12 < i)
  let place := if i % 2 = 1 then t!"odd" else t!"even"
  let white := k.card (column i) y 18 88 flip (place ++ t!"-white-") 1 15 you
  let green := k.card (column i) y 18 88 flip (place ++ t!"-green-") 1 15 him
  k.image (column i) y 18 88 flip (safari (place ++ t!"-none")) :: if i ≤ 12 then white ++ green else green ++ white

/-- The cube with the exponent `n`. -/
def Ink.safariCube (k : Ink) (x y : Int) (n : Nat) : List Op := k.card x y 25 25 false t!"cube_" 0 5 n

/-- What lies in the field of a player: their dice, or the cube offered to the opponent, or chips for the
resignation offered by the opponent. -/
def Ink.safariField (k : Ink) (b : Board) (p : Int) : List Op :=
  k.image (if p = 0 then 158 else 25) 93 108 46 false (safari t!"field") ::
  (if b.rolled ≠ (0, 0) then
     if b.onAction = p then
       k.card (if p = 0 then 204 else 71) 95 16 16 false t!"die_" 1 6 b.rolled.1 ++
       k.card (if p = 0 then 176 else 43) 95 16 16 false t!"die_" 1 6 b.rolled.2
     else []
   else if b.onInnerAction = b.onAction ∨ b.onAction = p then []
   else if b.doubled then k.safariCube (if p = 0 then 50 else 180) 100 (b.cube + 1)
   else (List.range b.resignOffer.toNat).map fun (j : Nat) =>
     Op.image t!"bglib/image/resource/safari/chip.png" (k.scale 25, k.scale 25) false
       (k.scale (if p = 0 then 157 else 25) + (j + 1) * k.scale 20, k.scale 93))

/-- The cube at its owner `o`, unless it is offered. -/
def Ink.safariCubeAt (k : Ink) (b : Board) (o : Int) : List Op :=
  if Pending b ∨ b.cubeOwner ≠ o then []
  else k.safariCube 266 (if o = 0 then 197 else if o = 1 then 5 else 105) b.cube

/-- The picture of a board with the style safari.  The chequers that were taken off are not in it. -/
def Ink.safariPicture (k : Ink) (b : Board) : List Op :=
  [k.rect 0 0 341 232 t!"red",
   k.rect 0 103 25 26 t!"white",
   k.image 0 103 25 26 false (safari (if (actionWords b).1 = 0 then t!"action_white" else t!"action_green"))] ++
  k.card 316 93 25 46 false t!"score_" 0 25 b.matchLength ++
  [k.image 291 93 25 46 false (safari (if b.crawford then t!"crawford" else t!"score_template"))] ++
  k.card 291 139 50 93 false t!"score_" 0 25 b.score.1 ++
  k.card 291 0 50 93 false t!"score_" 0 25 b.score.2 ++
  [k.image 0 0 291 232 false (safari t!"position"),
   k.image 266 101 25 30 false (safari t!"cubeholder")] ++
  k.safariCubeAt b 3 ++
  k.safariField b 0 ++
  [k.image 266 131 25 101 false (safari t!"your-home")] ++
  k.safariCubeAt b 0 ++
  [k.image 133 5 25 111 false (safari t!"bar-none")] ++
  k.card 133 5 25 111 false t!"bar-green-" 1 15 (cnt b.position.2 24) ++
  (List.range 24).flatMap (fun i =>
    k.safariPoint (i + 1) (cnt b.position.1 i) (cnt b.position.2 (23 - i))) ++
  [k.image 133 116 25 111 false (safari t!"bar-none")] ++
  k.card 133 116 25 111 false t!"bar-white-" 1 15 (cnt b.position.1 24) ++
  [k.image 266 0 25 101 false (safari t!"his-home")] ++
  k.safariCubeAt b 1 ++
  k.safariField b 1

/-- There are images for the numbers of this board. -/
structure HasCards (b : Board) : Prop where
  score : 0 ≤ b.score.1 ∧ b.score.1 ≤ 25 ∧ 0 ≤ b.score.2 ∧ b.score.2 ≤ 25
  length : 0 ≤ b.matchLength ∧ b.matchLength ≤ 25
  cube : b.cube ≤ 5
  offered : Pending b → b.cube ≤ 4
  chequers : (∀ x ∈ b.position.1, 0 ≤ x ∧ x ≤ 15) ∧ ∀ x ∈ b.position.2, 0 ≤ x ∧ x ≤ 15

/-- Two boards agree in what safari shows.  It does not tell whether the player who has to roll took a double
before. -/
structure SafariSight (b c : Board) : Prop where
  position : b.position = c.position
  score : b.score = c.score
  length : b.matchLength = c.matchLength
  crawford : b.crawford = c.crawford
  turn : b.onAction = c.onAction
  dice : b.rolled = c.rolled
  inner : b.rolled = (0, 0) → b.onInnerAction = c.onInnerAction
  resigning : Resigning b ↔ Resigning c
  resign : Resigning b → b.resignOffer = c.resignOffer
  pending : Pending b ↔ Pending c
  owner : ¬ Pending b → b.cubeOwner = c.cubeOwner
  cube : ¬ Pending b → b.cube = c.cube
  offered : Pending b → b.rolled = (0, 0) → b.cube = c.cube

/-! ### matrix -/

/-- The files of the style matrix. -/
def matrix (name : Text) : Text := t!"bglib/image/resource/matrix/" ++ (name ++ t!".png")

/-- The font of the style matrix. -/
def matrixFont : Text := t!"bglib/image/resource/matrix/DejaVuLGCSans-Bold.ttf"

/-- The corner of a point: the points wind through five rows. -/
def corner (i : Nat) : Int × Int :=
  if i ≤ 5 then (660 - 100 * i, 560)
  else if i ≤ 10 then (100 * i - 440, 460)
  else if i ≤ 12 then (1660 - 100 * i, 360)
  else if i ≤ 14 then (1560 - 100 * i, 360)
  else if i ≤ 19 then (100 * i - 1340, 260)
  else (2560 - 100 * i, 160)

/-- A place for chequers: its corner and its size, the step to the next chequer, and the step from behind a row to the
next row. -/
structure Spot where
  at_ : Int × Int
  size : Int × Int
  step : Int
  row : Int × Int

/-- Where the next chequer goes: further right, or to the next row when it would stick out. -/
def Ink.onward (k : Ink) (s : Spot) (p : Int × Int) : Int × Int :=
  let q := (p.1 + k.scale s.step, p.2)
  if q.1 + k.scale 20 > k.scale s.at_.1 + k.scale s.size.1 ∨ q.2 + k.scale 20 > k.scale s.at_.2 + k.scale s.size.2 then
    (q.1 + k.scale s.row.1, q.2 + k.scale s.row.2)
  else q

/-- Where the chequer number `j` goes, from 0. -/
def Ink.nth (k : Ink) (s : Spot) : Nat → Int × Int
  | 0 => (k.scale s.at_.1, k.scale s.at_.2)
  | j + 1 => k.onward s (k.nth s j)

/-- At most `max` chequers, and the number when there are more. -/
def Ink.heap (k : Ink) (s : Spot) (max : Int) (colour : Text) (n : Int) : List Op :=
  (List.range (min n max).toNat).map (fun j =>
    Op.image (matrix (t!"checker_" ++ colour)) (k.scale 20, k.scale 20) false (k.nth s j)) ++
  if n > max then [Op.text (k.nth s max.toNat) (k.scale 20, k.scale 20) (pyStr n) matrixFont t!"white"] else []

def pointSpot (i : Nat) : Spot := ⟨corner i, (100, 100), 30, (-90, 30)⟩

/-- The chequers on a point. -/
def Ink.matrixPoint (k : Ink) (i : Nat) (you him : Int) : List Op :=
  if i ≤ 12 then k.heap (pointSpot i) 8 t!"blue" you ++ k.heap (pointSpot i) 8 t!"red" him
  else k.heap (pointSpot i) 8 t!"red" him ++ k.heap (pointSpot i) 8 t!"blue" you

/-- The dice of a player. -/
def Ink.matrixDice (k : Ink) (b : Board) (p : Int) : List Op :=
  if b.rolled ≠ (0, 0) ∧ b.onAction = p then
    let die (x y n : Int) := k.image x y 30 30 false (matrix (t!"dice_" ++ ((if p = 0 then t!"blue" else t!"red") ++ (t!"_" ++ pyStr n))))
    if p = 0 then [die 735 280 b.rolled.1, die 690 260 b.rolled.2] else [die 105 480 b.rolled.1, die 60 500 b.rolled.2]
  else []

/-- The picture of a board with the style matrix. -/
def Ink.matrixPicture (k : Ink) (b : Board) : List Op :=
  [if (actionWords b).1 = 0 then k.image 830 670 100 100 false (matrix t!"ind_blue_r")
   else k.image 830 30 100 100 false (matrix t!"ind_red_l"),
   k.text 800 500 200 300 (pyStr b.score.1) matrixFont t!"#3cb7ff",
   k.text 800 0 200 300 (pyStr b.score.2) matrixFont t!"#fd4993",
   k.image 0 0 800 800 false (matrix t!"position")] ++
  k.matrixDice b 0 ++
  k.heap ⟨(160, 670), (500, 70), 30, (0, 0)⟩ 15 t!"blue" (15 - b.position.1.sum) ++
  k.heap ⟨(160, 10), (25, 111), 0, (0, 0)⟩ 8 t!"red" (cnt b.position.2 24) ++
  (List.range 24).flatMap (fun i =>
    k.matrixPoint (i + 1) (cnt b.position.1 i) (cnt b.position.2 (23 - i))) ++
  k.heap ⟨(160, 770), (25, 111), 0, (0, 0)⟩ 8 t!"blue" (cnt b.position.1 24) ++
  k.heap ⟨(160, 60), (500, 70), 30, (0, 0)⟩ 15 t!"red" (15 - b.position.2.sum) ++
  k.matrixDice b 1

/-- Two boards agree in what matrix shows: the chequers, the scores, the dice and the player marked. -/
structure MatrixSight (b c : Board) : Prop where
  position : b.position = c.position
  score : b.score = c.score
  dice : b.rolled = c.rolled
  turn : b.rolled ≠ (0, 0) → b.onAction = c.onAction
  marked : (actionWords b).1 = (actionWords c).1

/-- A magnification that is not too small; that of a sum is that of the parts, but for rounding.  `int(x * mag)` is
one for `mag` from 0.6 on. -/
structure Magnifies (scale : Int → Int) : Prop where
  nonneg : ∀ x, 0 ≤ x → 0 ≤ scale x
  neg : ∀ x, scale (-x) = -scale x
  sum : ∀ x y, 0 ≤ x → 0 ≤ y → scale x + scale y ≤ scale (x + y) ∧ scale (x + y) ≤ scale x + scale y + 1
  large : 6 ≤ scale 10

end Bglib.Spec
