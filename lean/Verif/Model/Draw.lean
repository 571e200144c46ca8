import Verif.Model.Image
/-
Model of drawing: the methods `draw` and `bg_draw` of `bglib/image/base.py` and `bglib/image/draw.py`.

What is drawn is a list of operations of the device `Draw`.  `scale` is `apply_mag`: `int(x * self.mag)`
for the magnification of the board; style sheets that set `mag` themselves are left out.  Loading
an image or a font is part of the operation that uses it and is assumed to succeed.  An element is given
with its ancestors, nearest first.
-/
namespace Bglib.Img
open Bglib

/-- The operations of draw.py:49-73; colours are texts. -/
inductive Op where
  | text (pos size : Int × Int) (s : Text) (font : Text) (fill : Text)
  | ellipse (pos size : Int × Int) (fill : Option Text)
  | polygon (pts : List (Int × Int)) (fill : Option Text)
  | rect (pos size : Int × Int) (fill : Text)
  | image (src : Text) (size : Int × Int) (flip : Bool) (pos : Int × Int)
  deriving DecidableEq, Repr

/-- `self.x` and the like where a number is used. -/
def attrInt (n : Text) (up : List Elem) : Py Int :=
  match lookupAttr n up with
  | .ok (.int i) => .ok i
  | .ok (.bool b) => .ok (if b then 1 else 0)
  | .ok _ => .error .typeError
  | .error x => .error x

/-- `self.font` and the like. -/
def attrText? (n : Text) (up : List Elem) : Option Text :=
  match lookupAttr n up with
  | .ok (.str t) => some t
  | _ => none

/-- `getattr(self, n, None)` used as a condition: a text that is not empty. -/
def attrTruthy (n : Text) (up : List Elem) : Option Text :=
  match attrText? n up with
  | some t => if t = [] then none else some t
  | none => none

/-- `getattr(self, n)` for a flag -/
def attrFlag (n : Text) (up : List Elem) : Py Bool :=
  match lookupAttr n up with
  | .ok (.bool b) => .ok b
  | .ok _ => .error .typeError
  | .error x => .error x

/-- `hasattr(e, n)` -/
def hasAttr (n : Text) (up : List Elem) : Bool :=
  match lookupAttr n up with
  | .ok _ => true
  | .error _ => false

/-- The place and the size of an element on the device, base.py:250-251 and its repetitions. -/
def boxOf (scale : Int → Int) (up : List Elem) : Py ((Int × Int) × (Int × Int)) := do
  let w ← attrInt t!"width" up
  let h ← attrInt t!"height" up
  let x ← attrInt t!"x" up
  let y ← attrInt t!"y" up
  return ((scale x, scale y), (scale w, scale h))

/-- `self.children[0]` of an element that takes text only -/
def firstText (up : List Elem) : Py Text :=
  match up with
  | [] => .error .indexError
  | e :: _ => match e.data with
    | [] => .error .indexError
    | t :: _ => .ok t

/-- `int(self.children[0])` -/
def firstInt (up : List Elem) : Py Int :=
  match firstText up with
  | .error x => .error x
  | .ok t => match pyInt t with
    | some n => .ok n
    | none => .error .valueError

/-- `bg_draw`, base.py:248-252 -/
def bgDraw (scale : Int → Int) (up : List Elem) : Py (List Op) :=
  match attrText? t!"background" up with
  | none => .error .assertion
  | some c => do
    let (p, s) ← boxOf scale up
    return [.rect p s c]

/-- `load_image` and `paste_image` with the flag `flip` -/
def paste (src : Text) (up : List Elem) (pos size : Int × Int) : Py (List Op) := do
  let f ← attrFlag t!"flip" up
  return [.image src size f pos]

/-- `BaseElement.draw`, base.py:254-259 -/
def drawBase (scale : Int → Int) (up : List Elem) : Py (List Op) := do
  let (p, s) ← boxOf scale up
  match attrText? t!"image" up with
  | some i => paste i up p s
  | none => return []

/-- `self.color` where it is needed -/
def needColor (up : List Elem) : Py Text :=
  match attrText? t!"color" up with
  | some c => .ok c
  | none => .error .attributeError

/-- `draw` of Action, Length and Score, base.py:329-342, 350-361, 388-398 -/
def drawLabel (scale : Int → Int) (up : List Elem) : Py (List Op) := do
  let (p, s) ← boxOf scale up
  match attrTruthy t!"image" up, attrTruthy t!"font" up with
  | some i, _ => paste i up p s
  | none, some f => do
    let t ← firstText up
    let c ← needColor up
    return [.text p s t f c]
  | none, none => return []

/-- `draw` of Crawford, base.py:368-380 -/
def drawCrawford (scale : Int → Int) (up : List Elem) : Py (List Op) := do
  let (p, s) ← boxOf scale up
  match attrTruthy t!"image" up, attrTruthy t!"font" up with
  | some i, _ => paste i up p s
  | none, some f => do
    let t ← firstText up
    if t = t!"True" then do
      let c ← needColor up
      return [.text p s t!"*" f c]
    else return []
  | none, none => return []

/-- `draw` of Field, base.py:431-443; the colour defaults to black, the flag `flip` to None. -/
def drawField (scale : Int → Int) (up : List Elem) : Py (List Op) := do
  let (p, s) ← boxOf scale up
  match attrTruthy t!"image" up, attrTruthy t!"text" up, attrTruthy t!"font" up with
  | some i, _, _ => return [.image i s (match attrFlag t!"flip" up with | .ok b => b | .error _ => false) p]
  | none, some t, some f => return [.text p s t f ((attrText? t!"color" up).getD t!"black")]
  | none, _, _ => return []

/-- Python's `/` of ints, rounding down. -/
def half (x : Int) : Int := x / 2

/-- Where the dots of a die are, base.py:478-484: `i` and `j` quarters. -/
def dotAt (p s d : Int × Int) (i j : Int) : Int × Int :=
  (p.1 + s.1 * i / 4 - half d.1, p.2 + s.2 * j / 4 - half d.2)

/-- `center`, base.py:478 -/
def dotCenter (p s d : Int × Int) : Int × Int := (p.1 + half s.1 - half d.1, p.2 + half s.2 - half d.2)

/-- The dots of base.py:485-515 -/
def dots (p s d : Int × Int) (t : Text) : Py (List (Int × Int)) :=
  let center := dotCenter p s d
  let ltop := dotAt p s d 1 1
  let lmid := dotAt p s d 1 2
  let lbot := dotAt p s d 1 3
  let rtop := dotAt p s d 3 1
  let rmid := dotAt p s d 3 2
  let rbot := dotAt p s d 3 3
  if t = t!"1" then .ok [center]
  else if t = t!"2" then .ok [rtop, lbot]
  else if t = t!"3" then .ok [rtop, center, lbot]
  else if t = t!"4" then .ok [rtop, rbot, ltop, lbot]
  else if t = t!"5" then .ok [rtop, rbot, ltop, lbot, center]
  else if t = t!"6" then .ok [rtop, rmid, rbot, ltop, lmid, lbot]
  else .error .assertion

/-- `draw` of Die, base.py:463-518 -/
def drawDie (scale : Int → Int) (up : List Elem) : Py (List Op) := do
  let (p, s) ← boxOf scale up
  let color := (attrText? t!"color" up).getD t!"black"
  let style ← lookupAttr t!"diestyle" up
  match attrTruthy t!"image" up, attrTruthy t!"font" up with
  | some i, _ => paste i up p s
  | none, font =>
    if style = .str t!"numeric" ∧ font.isSome then do
      let t ← firstText up
      return [.text p s t (font.getD []) color]
    else if style = .str t!"dot" then do
      let e ← attrInt t!"eyesize" up
      let d := (scale e, scale e)
      let t ← firstText up
      let ds ← dots p s d t
      return ds.map fun q => .ellipse q d (some color)
    else .error .assertion

/-- `draw` of Cube, base.py:528-546; the text is the exponent of the cube, never negative. -/
def drawCube (scale : Int → Int) (up : List Elem) : Py (List Op) := do
  let (p, s) ← boxOf scale up
  let color := (attrText? t!"color" up).getD t!"white"
  match attrTruthy t!"image" up, attrTruthy t!"font" up with
  | some i, _ => paste i up p s
  | none, some f => do
    let log ← firstInt up
    match (if log = 0 then attrText? t!"initialCube" up else none) with
    | some t => return [.text p s t f color]
    | none => return [.text p s (decimal (2 ^ log.toNat)) f color]
  | none, none => .error .assertion

/-- `RESIGN_STRINGS`, constants.py:37 -/
def resignStrings : List Text := [t!"none", t!"single", t!"gammon", t!"backgammon"]

/-- The chips of base.py:567-570 -/
def chips (src : Text) (size off : Int × Int) : Nat → Int × Int → List Op
  | 0, _ => []
  | n + 1, p => .image src size false (p.1 + off.1, p.2 + off.2) :: chips src size off n (p.1 + off.1, p.2 + off.2)

/-- `draw` of Resign, base.py:557-576 -/
def drawResign (scale : Int → Int) (up : List Elem) : Py (List Op) := do
  let (p, s) ← boxOf scale up
  let color := (attrText? t!"color" up).getD t!"white"
  let ox ← attrInt t!"x_offset" up
  let oy ← attrInt t!"y_offset" up
  match attrTruthy t!"image" up, attrTruthy t!"font" up with
  | some i, _ => do
    let n ← firstInt up
    return chips i s (scale ox, scale oy) n.toNat p
  | none, some f => do
    let n ← firstInt up
    let t ← pyGet resignStrings n
    return [.text p s t f color]
  | none, none => .error .assertion

/-- `getattr(self, n, 0)` for an offset -/
def attrIntOr0 (n : Text) (up : List Elem) : Int :=
  match attrInt n up with
  | .ok i => i
  | .error _ => 0

/-- What is drawn for one chequer, base.py:635-643 -/
inductive Mark where
  | image (src : Text) (flip : Bool)
  | disc (fill : Option Text)
  deriving DecidableEq, Repr

def Mark.op (m : Mark) (pos size : Int × Int) : Op :=
  match m with
  | .image src flip => .image src size flip pos
  | .disc fill => .ellipse pos size fill

/-- What the loop of base.py:634-649 needs: the size, the two offsets and the corner of the parent. -/
structure Pile where
  size : Int × Int
  off : Int × Int
  off2 : Int × Int
  corner : Int × Int
  deriving DecidableEq, Repr

/-- base.py:644-649 -/
def Pile.next (l : Pile) (p : Int × Int) : Int × Int :=
  let q := (p.1 + l.off.1, p.2 + l.off.2)
  if q.1 + l.size.1 > l.corner.1 ∨ q.2 + l.size.2 > l.corner.2 then (q.1 + l.off2.1, q.2 + l.off2.2) else q

/-- The places of the chequers, and the place after them. -/
def Pile.places (l : Pile) : Nat → Int × Int → List (Int × Int) × (Int × Int)
  | 0, p => ([], p)
  | n + 1, p => (p :: (l.places n (l.next p)).1, (l.places n (l.next p)).2)

/-- Whether the chequers are images, base.py:635-643; `flip` is read in the loop. -/
def chequerMark (up : List Elem) : Py Mark :=
  match attrTruthy t!"image" up with
  | some i => do
    let f ← attrFlag t!"flip" up
    return .image i f
  | none => .ok (.disc (some ((attrText? t!"color" up).getD t!"white")))

/-- `self.apply_mag(self.parent.x)` and the like, base.py:646-647 -/
def cornerOf (scale : Int → Int) (up : List Elem) : Py (Int × Int) :=
  match up with
  | [] => .error .attributeError
  | _ :: par => do
    let x ← attrInt t!"x" par
    let w ← attrInt t!"width" par
    let y ← attrInt t!"y" par
    let h ← attrInt t!"height" par
    return (scale x + scale w, scale y + scale h)

/-- The number written behind a pile that is too high, base.py:651-652 -/
def pileLabel (up : List Elem) (count max : Int) (pos size : Int × Int) : List Op :=
  match attrText? t!"font" up with
  | some f =>
    if attrFlag t!"hide_count" up ≠ .ok true ∧ count > max then
      [.text pos size (pyStr count) f ((attrText? t!"color" up).getD t!"white")]
    else []
  | none => []

/-- The offsets and bounds of a pile. -/
def pileOf (scale : Int → Int) (up : List Elem) (size corner : Int × Int) : Pile :=
  ⟨size, (scale (attrIntOr0 t!"x_offset" up), scale (attrIntOr0 t!"y_offset" up)),
    (scale (attrIntOr0 t!"x_offset2" up), scale (attrIntOr0 t!"y_offset2" up)), corner⟩

/-- `draw` of Chequer, base.py:616-652.  `Chequer` has no attribute `fill`, so that `fill` is True.  When no
chequer is drawn the attributes read in the loop are not needed. -/
def drawChequer (scale : Int → Int) (up : List Elem) : Py (List Op) := do
  let count ← firstInt up
  let (p, s) ← boxOf scale up
  let max ← attrInt t!"max_count" up
  let n := (min count max).toNat
  if n = 0 then return pileLabel up count max p s
  else do
    let m ← chequerMark up
    let c ← cornerOf scale up
    let r := (pileOf scale up s c).places n p
    return r.1.map (fun q => m.op q s) ++ pileLabel up count max r.2 s

/-- `draw` of Point, base.py:676-705; `fill` is True unless it is set. -/
def drawPoint (scale : Int → Int) (up : List Elem) : Py (List Op) := do
  let ((x, y), (w, h)) ← boxOf scale up
  let fill := match attrFlag t!"fill" up with
    | .ok b => b
    | .error _ => true
  let color := (attrText? t!"color" up).getD t!"white"
  match attrTruthy t!"image" up with
  | some i => paste i up (x, y) (w, h)
  | none =>
    if color = [] then .error .assertion
    else do
      let f ← attrFlag t!"flip" up
      let pts := if f then [(x, y), (x + half w, y + h), (x + w, y)]
        else [(x, y + h), (x + half w, y), (x + w, y + h)]
      return [.polygon pts (if fill then some color else none)]

/-- `draw` by the class of the element. -/
def drawElem (scale : Int → Int) (up : List Elem) : Py (List Op) :=
  match up with
  | [] => .error .attributeError
  | e :: _ => match e.name with
    | .action | .length | .score => drawLabel scale up
    | .crawford => drawCrawford scale up
    | .field => drawField scale up
    | .die => drawDie scale up
    | .cube => drawCube scale up
    | .resign => drawResign scale up
    | .chequer => drawChequer scale up
    | .point => drawPoint scale up
    | .board | .match | .position | .topFrame | .bottomFrame | .cubeholder | .home | .bar => drawBase scale up

/-- draw.py:78-79 -/
def backOps (scale : Int → Int) (up : List Elem) : Py (List Op) :=
  if hasAttr t!"background" up then bgDraw scale up else .ok []

/-- draw.py:80-81 -/
def ownOps (scale : Int → Int) (up : List Elem) : Py (List Op) :=
  if hasAttr t!"image" up || hasAttr t!"color" up then drawElem scale up else .ok []

/-- `draw_element`, draw.py:75-81 -/
def drawElement (scale : Int → Int) (up : List Elem) : Py (List Op) := do
  let a ← backOps scale up
  let b ← ownOps scale up
  return a ++ b

mutual
/-- `visit` with `draw_element`, base.py:700-709 with draw.py:43: an element first, then its children. -/
def Tree.drawn (scale : Int → Int) (anc : List Elem) : Tree → Py (List Op)
  | .node e kids =>
    match drawElement scale (e :: anc) with
    | .error x => .error x
    | .ok a =>
      match drawnAll scale (e :: anc) kids with
      | .error x => .error x
      | .ok b => .ok (a ++ b)
def drawnAll (scale : Int → Int) (anc : List Elem) : List Tree → Py (List Op)
  | [] => .ok []
  | t :: ts =>
    match t.drawn scale anc with
    | .error x => .error x
    | .ok a =>
      match drawnAll scale anc ts with
      | .error x => .error x
      | .ok b => .ok (a ++ b)
end

/-- `result_from_dc`, draw.py:26-28: the list must not be empty. -/
def resultOf (ops : List Op) : Py (List Op) := if ops = [] then .error .assertion else .ok ops

/-- The picture of a board with a style: `make_tree`, the visit and the result of draw.py:35-47. -/
def drawBoard (rules : List Rule) (scale : Int → Int) (b : Board) : Py (List Op) :=
  match ETree.create.set b with
  | .error x => .error x
  | .ok t =>
    match t.board.styled rules [] with
    | .error x => .error x
    | .ok t =>
      match t.drawn scale [] with
      | .error x => .error x
      | .ok ops => resultOf ops

end Bglib.Img
