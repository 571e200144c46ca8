import Verif.Model.Editor
/-
Object identity of boards and editors: `bglib/model/board.py:27-46,195-217` and
`bglib/model/boardeditor.py:14-40`.

A heap is the list of objects created so far; a reference is an index.  Attribute values are immutable
tuples and numbers.  (Simplification: a caller who stores a mutable list as `position` is outside the
model.)
-/
namespace Bglib

/-- A value for one of the documented attributes; `none` stands for Python's `None`. -/
inductive Attr where
  | position (v : List Int × List Int)
  | cube (v : Nat)
  | cubeOwner (v : Int)
  | onAction (v : Int)
  | crawford (v : Bool)
  | gameState (v : Int)
  | onInnerAction (v : Int)
  | doubled (v : Bool)
  | resignOffer (v : Int)
  | rolled (v : Int × Int)
  | matchLength (v : Int)
  | score (v : Int × Int)
deriving DecidableEq, Repr

/-- `d[name] = value`. -/
def Board.setAttr (b : Board) : Attr → Board
  | .position v => { b with position := v }
  | .cube v => { b with cube := v }
  | .cubeOwner v => { b with cubeOwner := v }
  | .onAction v => { b with onAction := v }
  | .crawford v => { b with crawford := v }
  | .gameState v => { b with gameState := v }
  | .onInnerAction v => { b with onInnerAction := v }
  | .doubled v => { b with doubled := v }
  | .resignOffer v => { b with resignOffer := v }
  | .rolled v => { b with rolled := v }
  | .matchLength v => { b with matchLength := v }
  | .score v => { b with score := v }

/-- A frozen `Board`, or a `BoardEditor` with its dictionary `_d` and the names of undocumented
attributes put into it. -/
inductive Obj where
  | board (b : Board)
  | editor (b : Board) (extra : List String)
deriving DecidableEq, Repr

abbrev Heap := List Obj

/-- Mutating calls a user can make on an object. -/
inductive Edit where
  | set (a : Attr)
  | setExtra (name : String)
  | flip
  | move (pm : PartialMove)
  | double (who : Int)
  | take (who : Int)
  | drop (who : Int)
  | offerResign (who howMuch : Int)
  | acceptResign (who : Int)
  | rejectResign (who : Int)
  | pickupDice
deriving DecidableEq, Repr

/-- An editor method on the dictionary. -/
def Edit.run (b : Board) : Edit → Step Board
  | .set a => ⟨b.setAttr a, none⟩
  | .setExtra _ => ⟨b, none⟩
  | .flip => b.flip
  | .move pm => match b.makePartialMove pm with
    | .ok b' => ⟨b', none⟩
    | .error e => ⟨b, some e⟩
  | .double w => b.double w
  | .take w => b.take w
  | .drop w => b.drop w
  | .offerResign w h => b.offerResign w h
  | .acceptResign w => b.acceptResign w
  | .rejectResign w => b.rejectResign w
  | .pickupDice => b.pickupDice

/-- User operations on the heap. -/
inductive HeapOp where
  /-- `Board(**kw)`, board.py:199-208 -/
  | newBoard (kw : List Attr)
  /-- `BoardEditor(src, **kw)`, boardeditor.py:15-30; `none`: no source -/
  | newEditor (src : Option Nat) (kw : List Attr)
  /-- `copy.copy(b)`: board.py:216-217 returns the board itself -/
  | freeze (r : Nat)
  | edit (r : Nat) (e : Edit)
deriving DecidableEq, Repr

/-- boardeditor.py:39-40 and board.py:199-208: `Board(**self._d)` asserts that every key is known. -/
def freezeObj : Obj → Py Board
  | .editor b [] => .ok b
  | .editor _ (_ :: _) => .error .assertion
  | .board _ => .error .attributeError

/-- Execute one operation; references that do not exist are `nameError` (no such variable).
A board has no editing methods (`AttributeError`), and assigning to its attributes raises `TypeError`
(board.py:210-211). -/
def HeapOp.run (h : Heap) : HeapOp → Step Heap
  | .newBoard kw => ⟨h ++ [.board (kw.foldl Board.setAttr {})], none⟩
  | .newEditor none kw => ⟨h ++ [.editor (kw.foldl Board.setAttr {}) []], none⟩
  | .newEditor (some r) kw =>
    match h[r]? with
    | some (.board b) => ⟨h ++ [.editor (kw.foldl Board.setAttr b) []], none⟩
    | some (.editor b x) => ⟨h ++ [.editor (kw.foldl Board.setAttr b) x], none⟩
    | none => ⟨h, some .nameError⟩
  | .freeze r =>
    match h[r]? with
    | some o => match freezeObj o with
      | .ok b => ⟨h ++ [.board b], none⟩
      | .error e => ⟨h, some e⟩
    | none => ⟨h, some .nameError⟩
  | .edit r e =>
    match h[r]? with
    | some (.editor b x) =>
      let s := e.run b
      let x' := match e with | .setExtra n => n :: x | _ => x
      ⟨h.set r (.editor s.st x'), s.err⟩
    | some (.board _) =>
      match e with
      | .set _ => ⟨h, some .typeError⟩
      | .setExtra _ => ⟨h, some .typeError⟩
      | _ => ⟨h, some .attributeError⟩
    | none => ⟨h, some .nameError⟩

/-- A whole history of operations (each continues after the exceptions of earlier ones). -/
def runHistory (h : Heap) : List HeapOp → Heap
  | [] => h
  | op :: ops => runHistory (op.run h).st ops

/-- The documented attributes of an object. -/
def Obj.attrs : Obj → Board
  | .board b => b
  | .editor b _ => b

/-- `a == b`, board.py:32-38: `TypeError` unless `b` is an instance of `a`'s class. -/
def Obj.eq (a b : Obj) : Py Bool :=
  match a, b with
  | .board x, .board y => .ok (decide (x = y))
  | .editor x _, .editor y _ => .ok (decide (x = y))
  | _, _ => .error .typeError

/-- `a != b`, board.py:40-46 -/
def Obj.ne (a b : Obj) : Py Bool :=
  match a, b with
  | .board x, .board y => .ok (decide (x ≠ y))
  | .editor x _, .editor y _ => .ok (decide (x ≠ y))
  | _, _ => .error .typeError

end Bglib
