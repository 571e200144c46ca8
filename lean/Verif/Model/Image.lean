import Verif.Model.Text
import Verif.Model.Regex
import Verif.Model.Board
/-
Model of the elements and attributes of `bglib/image/base.py`, of the style rules of
`bglib/image/css.py` and of `ElementTree`.

An element is its name, its attributes with their values and the strings among its children; a tree adds
the children that are elements.  The order between string children and element children is left out: no
code modelled here depends on it.  `parent` is given by the path from the root.
-/
namespace Bglib.Img
open Bglib

/-! ### Attributes -/

/-- Values of attributes.  Floats are kept as they are written, so that two ways of writing a number count
as different; only `mag` is a float. -/
inductive Value where
  | int (n : Int)
  | bool (b : Bool)
  | str (t : Text)
  | float (t : Text)
  deriving DecidableEq, Repr

/-- The attribute classes by what they accept and how they parse, base.py:70-172. -/
inductive Kind where
  | int | float | string | uri | bool | dieStyle | parity | player
  deriving DecidableEq, Repr

/-- An attribute class: its kind, `is_inherit()` and `default` if there is one. -/
structure AttrClass where
  kind : Kind
  inherit : Bool
  default : Option Value
  deriving DecidableEq, Repr

/-- The names of elements, base.py:305-678. -/
inductive EName where
  | board | match | action | length | crawford | score | position | topFrame | bottomFrame | cubeholder
  | field | die | cube | resign | home | chequer | bar | point
  deriving DecidableEq, Repr

/-- `name` of the class. -/
def EName.text : EName → Text
  | .board => t!"board" | .match => t!"match" | .action => t!"action" | .length => t!"length"
  | .crawford => t!"crawford" | .score => t!"score" | .position => t!"position" | .topFrame => t!"top_frame"
  | .bottomFrame => t!"bottom_frame" | .cubeholder => t!"cubeholder" | .field => t!"field" | .die => t!"die"
  | .cube => t!"cube" | .resign => t!"resign" | .home => t!"home" | .chequer => t!"chequer" | .bar => t!"bar"
  | .point => t!"point"

/-- `BaseElement.DTD_ATTLIST`, base.py:178-188. -/
def baseAttlist (n : Text) : Option AttrClass :=
  if n = t!"x" ∨ n = t!"y" ∨ n = t!"width" ∨ n = t!"height" then some ⟨.int, true, none⟩
  else if n = t!"image" then some ⟨.uri, false, none⟩
  else if n = t!"flip" then some ⟨.bool, true, some (.bool false)⟩
  else if n = t!"background" ∨ n = t!"color" then some ⟨.string, false, none⟩
  else if n = t!"font" then some ⟨.uri, true, none⟩
  else if n = t!"mag" then some ⟨.float, true, none⟩
  else none

/-- What the subclasses add to `DTD_ATTLIST`. -/
def extraAttlist (e : EName) (n : Text) : Option AttrClass :=
  let player : AttrClass := ⟨.player, false, none⟩
  let zero : AttrClass := ⟨.int, false, some (.int 0)⟩
  let fill : AttrClass := ⟨.bool, true, some (.bool true)⟩
  match e with
  | .action | .score | .bar => if n = t!"player" then some player else none
  | .field =>
    if n = t!"player" then some player
    else if n = t!"text" then some ⟨.string, false, none⟩
    else none
  | .die =>
    if n = t!"backgammon" then some ⟨.string, false, none⟩
    else if n = t!"diestyle" then some ⟨.dieStyle, false, some (.str t!"dot")⟩
    else if n = t!"eyesize" then some ⟨.int, false, none⟩
    else if n = t!"id" then some ⟨.string, false, none⟩
    else none
  | .cube => if n = t!"initialCube" then some ⟨.string, false, none⟩ else none
  | .resign =>
    if n = t!"player" then some player
    else if n = t!"x_offset" ∨ n = t!"y_offset" then some zero
    else none
  | .home => if n = t!"player" then some player else if n = t!"fill" then some fill else none
  | .chequer =>
    if n = t!"player" then some player
    else if n = t!"x_offset" ∨ n = t!"y_offset" ∨ n = t!"x_offset2" ∨ n = t!"y_offset2" then some zero
    else if n = t!"hide_count" then some ⟨.bool, false, some (.bool false)⟩
    else if n = t!"max_count" then some ⟨.int, false, none⟩
    else none
  | .point => if n = t!"fill" then some fill else if n = t!"parity" then some ⟨.parity, false, none⟩ else none
  | _ => none

/-- `DTD_ATTLIST` of an element class. -/
def attlist (e : EName) (n : Text) : Option AttrClass :=
  match baseAttlist n with
  | some c => some c
  | none => extraAttlist e n

/-- `s.split('"')[1]`; `none` is an IndexError. -/
def betweenQuotes (s : Text) : Option Text :=
  match s.dropWhile (· ≠ '"') with
  | [] => none
  | _ :: r => some (r.takeWhile (· ≠ '"'))

/-- `os.path.dirname` -/
def dirname (p : Text) : Text :=
  let head := (p.reverse.dropWhile (· ≠ '/')).reverse
  if head.all (· = '/') then head else (head.reverse.dropWhile (· = '/')).reverse

/-- `os.path.join` of two paths -/
def pathJoin (a b : Text) : Text :=
  if b.head? = some '/' then b
  else if a = [] ∨ a.getLast? = some '/' then a ++ b
  else a ++ '/' :: b

/-- `parse` of the attribute classes, base.py:70-172; `css` is the `css_path` of the attribute.  Python's
`bool` of a string is whether it is empty. -/
def Kind.parse (k : Kind) (css : Option Text) (s : Text) : Py Value :=
  match k with
  | .int => match pyInt s with
    | some n => .ok (.int n)
    | none => .error .valueError
  | .float => .ok (.float s)
  | .bool => .ok (.bool (s ≠ []))
  | .uri => match css with
    | none => .error .attributeError
    | some p => match betweenQuotes s with
      | none => .error .indexError
      | some f => .ok (.str (pathJoin (dirname p) f))
  | .string | .dieStyle | .parity | .player => .ok (.str s)

/-- `is_acceptable` -/
def Kind.accepts (k : Kind) (v : Value) : Bool :=
  match k, v with
  | .int, .int _ | .int, .bool _ => true
  | .float, .float _ => true
  | .bool, .bool _ => true
  | .string, .str _ | .uri, .str _ => true
  | .dieStyle, .str t => t = t!"dot" || t = t!"numeric"
  | .parity, .str t => t = t!"even" || t = t!"odd"
  | .player, .str t => t = t!"you" || t = t!"him"
  | _, _ => false

/-! ### Elements -/

/-- `BaseElement` without the children that are elements.  Whether made by the constructor or by
`__setattr__`, a stored attribute has no `css_path` (base.py:192, 270-273). -/
structure Elem where
  name : EName
  attrs : List (Text × Value)
  data : List Text
  deriving DecidableEq, Repr

def Elem.get (e : Elem) (n : Text) : Option Value := e.attrs.lookup n

/-- Storing a value: the place is kept if there is one. -/
def putAttr (n : Text) (v : Value) : List (Text × Value) → List (Text × Value)
  | [] => [(n, v)]
  | (m, w) :: r => if m = n then (m, v) :: r else (m, w) :: putAttr n v r

/-- `__setattr__` for a name in `DTD_ATTLIST`, base.py:262-276 -/
def Elem.set (e : Elem) (n : Text) (v : Value) : Py Elem :=
  match attlist e.name n with
  | none => .error .keyError
  | some c => if c.kind.accepts v then .ok { e with attrs := putAttr n v e.attrs } else .error .typeError

/-- One step of `apply`, base.py:228-234 -/
def Elem.apply1 (css : Text) (e : Elem) (n s : Text) : Py Elem :=
  match attlist e.name n with
  | none => .error .keyError
  | some c =>
    match c.kind.parse (if (e.get n).isSome then none else some css) s with
    | .error x => .error x
    | .ok v => e.set n v

/-- `apply`, base.py:227-234; the dictionary as a list. -/
def Elem.apply (css : Text) (e : Elem) : List (Text × Text) → Py Elem
  | [] => .ok e
  | (n, s) :: d =>
    match e.apply1 css n s with
    | .error x => .error x
    | .ok e' => e'.apply css d

/-- `__getattr__`, base.py:278-292: the element and its ancestors, nearest first. -/
def lookupAttr (n : Text) : List Elem → Py Value
  | [] => .error .attributeError
  | e :: up =>
    match attlist e.name n with
    | none => .error .attributeError
    | some c =>
      match e.get n with
      | some v => .ok v
      | none =>
        if c.inherit && !up.isEmpty then lookupAttr n up
        else match c.default with
          | some v => .ok v
          | none => .error .attributeError

/-! ### Style rules -/

/-- css.py:75-80; the parser gives a value whenever it gives a name. -/
structure Selector where
  element : Text
  attr : Option (Text × Text)
  data : Option Text
  deriving DecidableEq, Repr

/-- The test of the attribute, css.py:86-90 with base.py:64-65 -/
def Selector.attrMatch (s : Selector) (e : Elem) : Py Bool :=
  match s.attr with
  | none => .ok true
  | some (n, t) =>
    match e.get n with
    | none => .ok false
    | some v =>
      match attlist e.name n with
      | none => .ok false
      | some c =>
        match c.kind.parse none t with
        | .error x => .error x
        | .ok w => .ok (w = v)

/-- `is_match`, css.py:82-93 -/
def Selector.isMatch (s : Selector) (e : Elem) : Py Bool :=
  if e.name.text = s.element then
    match s.attrMatch e with
    | .error x => .error x
    | .ok false => .ok false
    | .ok true => match s.data with
      | none => .ok true
      | some d => .ok (d ∈ e.data)
  else .ok false

/-- css.py:107-112; the block is a dictionary: no name occurs twice. -/
structure Rule where
  css : Text
  pattern : List Selector
  block : List (Text × Text)
  deriving DecidableEq, Repr

/-- The loop of css.py:126-141 after the first element: the selectors left and the ancestors left, from
the end. -/
def descend : List Selector → List Elem → Py Bool
  | _, [] => .ok false
  | [], _ => .ok true
  | p :: ps, e :: es =>
    match p.isMatch e with
    | .error x => .error x
    | .ok true => if ps = [] then .ok true else descend ps es
    | .ok false => descend (p :: ps) es

/-- `is_match`, css.py:120-143; the path from the root. -/
def Rule.isMatch (r : Rule) (path : List Elem) : Py Bool :=
  match path.reverse, r.pattern.reverse with
  | [], _ => .error .assertion
  | _, [] => .error .assertion
  | e :: es, p :: ps =>
    match p.isMatch e with
    | .error x => .error x
    | .ok false => .ok false
    | .ok true => if ps = [] then .ok true else descend ps es

/-- `apply`, css.py:145-151: the element at the end of the path afterwards. -/
def Rule.apply (r : Rule) (anc : List Elem) (e : Elem) : Py Elem :=
  match r.isMatch (anc ++ [e]) with
  | .error x => .error x
  | .ok false => .ok e
  | .ok true => e.apply r.css r.block

/-- css.py:172-174 -/
def applyRules (anc : List Elem) (e : Elem) : List Rule → Py Elem
  | [] => .ok e
  | r :: rs =>
    match r.apply anc e with
    | .error x => .error x
    | .ok e' => applyRules anc e' rs

/-- An element with the children that are elements. -/
inductive Tree where
  | node (e : Elem) (kids : List Tree)

mutual
/-- `visit` with the rules, base.py:700-709 with css.py:170-175: an element first, then its children. -/
def Tree.styled (rules : List Rule) (anc : List Elem) : Tree → Py Tree
  | .node e kids =>
    match applyRules anc e rules with
    | .error x => .error x
    | .ok e' =>
      match styledAll rules (anc ++ [e']) kids with
      | .error x => .error x
      | .ok ks => .ok (.node e' ks)
def styledAll (rules : List Rule) (anc : List Elem) : List Tree → Py (List Tree)
  | [] => .ok []
  | t :: ts =>
    match t.styled rules anc with
    | .error x => .error x
    | .ok t' =>
      match styledAll rules anc ts with
      | .error x => .error x
      | .ok ts' => .ok (t' :: ts')
end

/-! ### The tree of a board -/

/-- `DTD_ELEMENT`: the elements a class takes, and whether it takes text. -/
def EName.takes : EName → List EName × Bool
  | .board => ([.match, .position], false)
  | .match => ([.action, .length, .crawford, .score], false)
  | .position => ([.cubeholder, .field, .home, .bar, .point, .topFrame, .bottomFrame], false)
  | .cubeholder => ([.cube], true)
  | .field => ([.die, .cube, .resign], true)
  | .home => ([.cube, .chequer], true)
  | .bar | .point => ([.chequer], true)
  | .action | .length | .crawford | .score | .topFrame | .bottomFrame | .die | .cube | .resign
  | .chequer => ([], true)

def Tree.elem : Tree → Elem
  | .node e _ => e

def Tree.kids : Tree → List Tree
  | .node _ ks => ks

/-- `append` of an element, base.py:215-219 -/
def Tree.append (t k : Tree) : Py Tree :=
  if k.elem.name ∈ t.elem.name.takes.1 then .ok (.node t.elem (t.kids ++ [k])) else .error .typeError

/-- `append` of a string, base.py:220-223 -/
def Tree.write (t : Tree) (s : Text) : Py Tree :=
  if t.elem.name.takes.2 then .ok (.node { t.elem with data := t.elem.data ++ [s] } t.kids)
  else .error .typeError

/-- `Element(name, **kw)` -/
def newElem (n : EName) (attrs : List (Text × Value)) : Tree := .node ⟨n, attrs, []⟩ []

/-- `PLAYER_STRING`, constants.py:12 -/
def playerText (p : Int) : Text := if p = YOU then t!"you" else t!"him"

/-- The attributes of `ElementTree` that `set` changes; the lists for the two players as pairs, the
points 1 to 24 in order. -/
structure ETree where
  action : Tree
  length : Tree
  crawford : Tree
  score : Tree × Tree
  cubeholder : Tree
  field : Tree × Tree
  home : Tree × Tree
  bar : Tree × Tree
  points : List Tree

def playerAttr (p : Int) : List (Text × Value) := [(t!"player", .str (playerText p))]

/-- base.py:916-926 -/
def newPoint (i : Nat) : Tree :=
  .node ⟨.point, [(t!"parity", .str (if i % 2 = 1 then t!"odd" else t!"even"))], [decimal i]⟩ []

/-- `create_tree`, base.py:877-939 -/
def ETree.create : ETree where
  action := newElem .action []
  length := newElem .length []
  crawford := newElem .crawford []
  score := (newElem .score (playerAttr YOU), newElem .score (playerAttr HIM))
  cubeholder := newElem .cubeholder []
  field := (newElem .field (playerAttr YOU), newElem .field (playerAttr HIM))
  home := (newElem .home (playerAttr YOU), newElem .home (playerAttr HIM))
  bar := (newElem .bar (playerAttr YOU), newElem .bar (playerAttr HIM))
  points := (List.range 24).map fun i => newPoint (i + 1)

/-- `self.board`, in the order of base.py:890-938. -/
def ETree.board (t : ETree) : Tree :=
  .node ⟨.board, [], []⟩ [
    .node ⟨.match, [], []⟩ [t.action, t.length, t.crawford, t.score.1, t.score.2],
    .node ⟨.position, [], []⟩ ([newElem .topFrame [], newElem .bottomFrame [], t.cubeholder, t.field.1,
      t.home.1, t.bar.2] ++ t.points ++ [t.bar.1, t.home.2, t.field.2])]

/-- A chequer element with its count, as made at base.py:733-735. -/
def chequerElem (p n : Int) : Py Tree := (newElem .chequer (playerAttr p)).write (pyStr n)

/-- base.py:731-736 and its repetitions: nothing is added for the count 0. -/
def addChequers (t : Tree) (p n : Int) : Py Tree :=
  if n = 0 then .ok t
  else match chequerElem p n with
    | .error x => .error x
    | .ok c => t.append c

/-- An element with one string, added to `t`. -/
def addLeaf (t : Tree) (n : EName) (attrs : List (Text × Value)) (s : Text) : Py Tree :=
  match (newElem n attrs).write s with
  | .error x => .error x
  | .ok c => t.append c

/-- What one point gets, base.py:730-742: chequers of YOU in round `i` of the loop, of HIM in round
`25 - i`. -/
def setPoint (b : Board) (t : Tree) (i : Nat) : Py Tree := do
  let y ← pyGet b.position.1 (i - 1 : Int)
  let h ← pyGet b.position.2 (24 - i : Int)
  if i ≤ 12 then addChequers (← addChequers t YOU y) HIM h
  else addChequers (← addChequers t HIM h) YOU y

/-- All the points. -/
def setPoints (b : Board) : Nat → List Tree → Py (List Tree)
  | _, [] => .ok []
  | i, t :: ts => do
    let t' ← setPoint b t i
    let ts' ← setPoints b (i + 1) ts
    return t' :: ts'

/-- The cube, base.py:770-783 -/
def setCube (b : Board) (t : ETree) : Py ETree :=
  if !b.doubled || b.onInnerAction = b.onAction then
    if b.cubeOwner = YOU then do
      let h ← addLeaf t.home.1 .cube [] (decimal b.cube)
      return { t with home := (h, t.home.2) }
    else if b.cubeOwner = HIM then do
      let h ← addLeaf t.home.2 .cube [] (decimal b.cube)
      return { t with home := (t.home.1, h) }
    else if b.cubeOwner = CENTER then do
      let h ← addLeaf t.cubeholder .cube [] (decimal b.cube)
      return { t with cubeholder := h }
    else .error .assertion
  else .ok t

/-- `self.action.player = …; self.action.append(…)` -/
def setAction (t : ETree) (p : Int) (s : Text) : Py ETree := do
  let e ← t.action.elem.set t!"player" (.str (playerText p))
  let a ← (Tree.node e t.action.kids).write s
  return { t with action := a }

/-- Adding an element with a string to the field of a player. -/
def addField (t : ETree) (p : Int) (n : EName) (attrs : List (Text × Value)) (s : Text) : Py ETree :=
  if p = YOU then do
    let f ← addLeaf t.field.1 n attrs s
    return { t with field := (f, t.field.2) }
  else do
    let f ← addLeaf t.field.2 n attrs s
    return { t with field := (t.field.1, f) }

/-- The texts of base.py:785-856 for the player `p` on turn. -/
structure Phrases where
  roll : Text
  resign : Text
  doubled : Text
  took : Text
  move : Text

def phrases (p : Int) : Phrases :=
  if p = YOU then
    ⟨t!"you to roll or double.", t!"him to accept your resignation or not.",
     t!"you doubled. him to take or drop.", t!"you doubled. he took. you to roll.", t!"you to move."⟩
  else
    ⟨t!"him to roll or double.", t!"you to accept his resignation or not.",
     t!"he doubled. you to take or drop.", t!"he doubled. you took. him to roll.", t!"him to move."⟩

/-- base.py:785-820 for YOU and 822-856 for HIM: `p` is on turn, `o` is the other one.  The player of the
action element when a double waits for an answer is YOU in both (803, 838). -/
def setTurn (b : Board) (t : ETree) (p o : Int) : Py ETree :=
  if b.rolled = (0, 0) then
    if !b.doubled && b.onInnerAction = p then setAction t p (phrases p).roll
    else if !b.doubled && b.onInnerAction = o && b.resignOffer ∈ [RESIGN_SINGLE, RESIGN_GAMMON, RESIGN_BACKGAMMON] then do
      let t ← setAction t o (phrases p).resign
      addField t o .resign [] (pyStr b.resignOffer)
    else if b.doubled && b.onInnerAction = o then do
      let t ← addField t o .cube [] (decimal (b.cube + 1))
      setAction t YOU (phrases p).doubled
    else if b.doubled && b.onInnerAction = p then setAction t p (phrases p).took
    else .error .assertion
  else do
    let t ← setAction t p (phrases p).move
    let t ← addField t p .die [(t!"id", .str t!"right")] (pyStr b.rolled.1)
    addField t p .die [(t!"id", .str t!"left")] (pyStr b.rolled.2)

/-- `set`, base.py:724-875, on a new tree. -/
def ETree.set (t : ETree) (b : Board) : Py ETree := do
  let sy ← t.score.1.write (pyStr b.score.1)
  let sh ← t.score.2.write (pyStr b.score.2)
  let l ← t.length.write (pyStr b.matchLength)
  let c ← t.crawford.write (if b.crawford then t!"True" else t!"False")
  let ps ← setPoints b 1 t.points
  let by_ ← pyGet b.position.1 24
  let bary ← addChequers t.bar.1 YOU by_
  let bh ← pyGet b.position.2 24
  let barh ← addChequers t.bar.2 HIM bh
  let homey ← addChequers t.home.1 YOU (15 - b.position.1.sum)
  let homeh ← addChequers t.home.2 HIM (15 - b.position.2.sum)
  let t : ETree := { t with
    score := (sy, sh)
    length := l
    crawford := c
    points := ps
    bar := (bary, barh)
    home := (homey, homeh) }
  let t ← setCube b t
  if b.onAction = YOU then setTurn b t YOU HIM
  else if b.onAction = HIM then setTurn b t HIM YOU
  else .error .assertion

end Bglib.Img
