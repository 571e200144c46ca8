import Verif.Spec.Draw
/-
The picture drawn with the plain styles (deutsche, flower, kotobuki, minimal, nature, neon), written out
(C68).  Nothing here mentions style sheets, elements or trees.
-/
namespace Bglib.Spec
open Bglib Bglib.Img

/-- The colours and the font of a plain style; pairs are for you and your opponent. -/
structure Palette where
  board : Text
  sheet : Text
  position : Text
  frame : Text
  holder : Text
  home : Text
  bar : Text
  action : Text
  actionInk : Text × Text
  lengthInk : Text
  crawfordInk : Text
  scoreInk : Text × Text
  fieldInk : Text
  odd : Text
  even : Text
  chequer : Text × Text
  die : Text × Text
  dieInk : Text × Text
  cube : Text
  cubeInk : Text
  resignInk : Text
  font : Text
  deriving DecidableEq, Repr

instance (b : Board) : Decidable (Pending b) := inferInstanceAs (Decidable (_ ∧ _))

/-- One of a pair. -/
def ofSide (p : Int) (x : Text × Text) : Text := if p = 0 then x.1 else x.2

/-- A device: its magnification. -/
structure Ink where
  scale : Int → Int

/-- A filled rectangle. -/
def Ink.rect (k : Ink) (x y w h : Int) (c : Text) : Op := .rect (k.scale x, k.scale y) (k.scale w, k.scale h) c

/-- A text in a box. -/
def Ink.text (k : Ink) (x y w h : Int) (t font c : Text) : Op :=
  .text (k.scale x, k.scale y) (k.scale w, k.scale h) t font c

/-- The left edge of a point. -/
def column (i : Nat) : Int :=
  if i ≤ 6 then 266 - 18 * i else if i ≤ 12 then 241 - 18 * i else if i ≤ 18 then 18 * i - 209 else 18 * i - 184

/-- A pile of chequers: at most `max` discs above each other, and the number when there are more. -/
def Ink.pile (k : Ink) (x y dy max : Int) (font c : Text) (n : Int) : List Op :=
  (List.range (min n max).toNat).map (fun (j : Nat) =>
    Op.ellipse (k.scale x, k.scale y + j * k.scale dy) (k.scale 16, k.scale 16) (some c)) ++
  if n > max then
    [Op.text (k.scale x, k.scale y + max * k.scale dy) (k.scale 16, k.scale 16) (pyStr n) font c]
  else []

/-- The triangle of a point. -/
def Ink.triangle (k : Ink) (i : Nat) (c : Text) : Op :=
  let x := k.scale (column i)
  let w := k.scale 18
  let h := k.scale 88
  if i ≤ 12 then .polygon [(x, k.scale 139 + h), (x + w / 2, k.scale 139), (x + w, k.scale 139 + h)] (some c)
  else .polygon [(x, k.scale 5), (x + w / 2, k.scale 5 + h), (x + w, k.scale 5)] (some c)

/-- A point with the chequers of both players: the pile starts at the edge of the board. -/
def Ink.point (k : Ink) (pal : Palette) (i : Nat) (you him : Int) : List Op :=
  let pileOf (c : Text) (n : Int) :=
    if i ≤ 12 then k.pile (column i) 210 (-18) 5 pal.font c n else k.pile (column i) 6 18 5 pal.font c n
  k.triangle i (if i % 2 = 1 then pal.odd else pal.even) ::
    (if i ≤ 12 then pileOf pal.chequer.1 you ++ pileOf pal.chequer.2 him
     else pileOf pal.chequer.2 him ++ pileOf pal.chequer.1 you)

/-- The centres of the eyes of a die, in quarters of the die. -/
def eyes (n : Int) : List (Int × Int) :=
  if n = 1 then [(2, 2)]
  else if n = 2 then [(3, 1), (1, 3)]
  else if n = 3 then [(3, 1), (2, 2), (1, 3)]
  else if n = 4 then [(3, 1), (3, 3), (1, 1), (1, 3)]
  else if n = 5 then [(3, 1), (3, 3), (1, 1), (1, 3), (2, 2)]
  else [(3, 1), (3, 2), (3, 3), (1, 1), (1, 2), (1, 3)]

/-- A die with `n` eyes. -/
def Ink.die (k : Ink) (x y : Int) (c ink : Text) (n : Int) : List Op :=
  k.rect x y 16 16 c :: (eyes n).map fun e =>
    Op.ellipse (k.scale x + k.scale 16 * e.1 / 4 - k.scale 3 / 2, k.scale y + k.scale 16 * e.2 / 4 - k.scale 3 / 2)
      (k.scale 3, k.scale 3) (some ink)

/-- The cube with the exponent `n`; before the first turn it shows 64. -/
def Ink.cube (k : Ink) (pal : Palette) (x y : Int) (n : Nat) : List Op :=
  [k.rect x y 25 25 pal.cube, k.text x y 25 25 (if n = 0 then t!"64" else decimal (2 ^ n)) pal.font pal.cubeInk]

/-- What lies in the field of a player: their dice, or the cube offered to the opponent, or the resignation
offered by the opponent. -/
def Ink.field (k : Ink) (pal : Palette) (b : Board) (p : Int) : List Op :=
  let x : Int := if p = 0 then 158 else 25
  k.text x 93 108 46 t!"Backgammonbase" pal.font pal.fieldInk ::
  (if b.rolled ≠ (0, 0) then
     if b.onAction = p then
       k.die (if p = 0 then 204 else 71) 95 (ofSide p pal.die) (ofSide p pal.dieInk) b.rolled.1 ++
       k.die (if p = 0 then 176 else 43) 95 (ofSide p pal.die) (ofSide p pal.dieInk) b.rolled.2
     else []
   else if b.onInnerAction = b.onAction ∨ b.onAction = p then []
   else if b.doubled then k.cube pal (if p = 0 then 50 else 180) 100 (b.cube + 1)
   else [k.text (if p = 0 then 157 else 25) 93 100 46 (resignWord b.resignOffer.toNat) pal.font pal.resignInk])

/-- The cube at its owner `o`, unless it is offered. -/
def Ink.cubeAt (k : Ink) (pal : Palette) (b : Board) (o : Int) : List Op :=
  if Pending b ∨ b.cubeOwner ≠ o then []
  else if o = 0 then k.cube pal 0 197 b.cube
  else if o = 1 then k.cube pal 0 5 b.cube
  else k.cube pal 0 105 b.cube

/-- Whose action it is, and what they are told. -/
def actionWords (b : Board) : Int × Text :=
  if b.rolled = (0, 0) then
    if b.onInnerAction = b.onAction then
      (b.onAction, if b.doubled then (phrases b.onAction).took else (phrases b.onAction).roll)
    else if b.doubled then (YOU, (phrases b.onAction).doubled)
    else (other b.onAction, (phrases b.onAction).resign)
  else (b.onAction, (phrases b.onAction).move)

/-- The picture of a board. -/
def Ink.picture (k : Ink) (pal : Palette) (b : Board) : List Op :=
  [k.rect 0 0 341 262 pal.board,
   k.rect 291 0 50 232 pal.sheet,
   k.rect 0 232 341 30 pal.action,
   k.text 0 232 341 30 (actionWords b).2 pal.font (ofSide (actionWords b).1 pal.actionInk),
   k.text 316 93 25 46 (pyStr b.matchLength) pal.font pal.lengthInk] ++
  (if b.crawford then [k.text 291 93 25 46 t!"*" pal.font pal.crawfordInk] else []) ++
  [k.text 291 139 50 93 (pyStr b.score.1) pal.font pal.scoreInk.1,
   k.text 291 0 50 93 (pyStr b.score.2) pal.font pal.scoreInk.2,
   k.rect 0 0 291 232 pal.position,
   k.rect 0 0 291 5 pal.frame,
   k.rect 0 227 291 5 pal.frame,
   k.rect 0 5 25 224 pal.holder] ++
  k.cubeAt pal b 3 ++
  k.field pal b 0 ++
  k.rect 266 116 25 112 pal.home :: k.pile 269 125 18 5 pal.font pal.chequer.1 (15 - b.position.1.sum) ++
  k.cubeAt pal b 0 ++
  k.rect 133 5 25 112 pal.bar :: k.pile 137 80 (-18) 4 pal.font pal.chequer.2 (cnt b.position.2 24) ++
  (List.range 24).flatMap (fun i =>
    k.point pal (i + 1) (cnt b.position.1 i) (cnt b.position.2 (23 - i))) ++
  k.rect 133 116 25 112 pal.bar :: k.pile 137 135 18 4 pal.font pal.chequer.1 (cnt b.position.1 24) ++
  k.rect 266 5 25 112 pal.home :: k.pile 269 90 (-18) 5 pal.font pal.chequer.2 (15 - b.position.2.sum) ++
  k.cubeAt pal b 1 ++
  k.field pal b 1

/-- No place has a negative number of chequers. -/
def NoDebt (b : Board) : Prop := (∀ x ∈ b.position.1, 0 ≤ x) ∧ ∀ x ∈ b.position.2, 0 ≤ x

/-- The number on the cube: 64 before the first double. -/
def cubeFace (n : Nat) : Text := if n = 0 then t!"64" else decimal (2 ^ n)

/-- A resignation waits for its answer. -/
def Resigning (b : Board) : Prop := b.rolled = (0, 0) ∧ b.onInnerAction ≠ b.onAction ∧ b.doubled = false

/-- Two boards agree in everything the players see. -/
structure SameSight (b c : Board) : Prop where
  position : b.position = c.position
  score : b.score = c.score
  length : b.matchLength = c.matchLength
  crawford : b.crawford = c.crawford
  turn : b.onAction = c.onAction
  dice : b.rolled = c.rolled
  inner : b.rolled = (0, 0) → b.onInnerAction = c.onInnerAction ∧ b.doubled = c.doubled
  resign : Resigning b → b.resignOffer = c.resignOffer
  pending : Pending b ↔ Pending c
  owner : ¬ Pending b → b.cubeOwner = c.cubeOwner
  face : ¬ Pending b → cubeFace b.cube = cubeFace c.cube
  offered : Pending b → b.rolled = (0, 0) → b.cube = c.cube

end Bglib.Spec
