import Verif.Model.Editor
/-
Model of `AvailableToPlay`, `Move` and `MoveFactory` in `bglib/model/move.py`.

Mutable arguments become results: a function that moves chequers on the board it was given returns the
board afterwards, also when it raises.  `MoveFactory.Error` objects (false in every test made by the
code) become `none`.  The `print` statements are left out.  Recursions that use up dice take fuel; the
wrapper gives one unit more than there are dice, and running out of fuel is `PyErr.diverges`.
-/
namespace Bglib

/-! ### AvailableToPlay -/

/-- The dictionary `_imp`, move.py:19.  `extra` is the sum of the counts under keys other than 1..6, which
`__init__` stores when it is given dice outside 1..6 (as move.py:253 does with a zero). -/
structure Avail where
  d1 : Nat := 0
  d2 : Nat := 0
  d3 : Nat := 0
  d4 : Nat := 0
  d5 : Nat := 0
  d6 : Nat := 0
  extra : Nat := 0
deriving DecidableEq, Repr

namespace Avail

/-- `_imp[k]` for a die `k`; `none` for another key. -/
def count (a : Avail) (k : Int) : Option Nat :=
  if k = 1 then some a.d1 else if k = 2 then some a.d2 else if k = 3 then some a.d3
  else if k = 4 then some a.d4 else if k = 5 then some a.d5 else if k = 6 then some a.d6 else none

/-- `_imp[k] = v`; a key outside 1..6 is a new key. -/
def put (a : Avail) (k : Int) (v : Nat) : Avail :=
  if k = 1 then { a with d1 := v } else if k = 2 then { a with d2 := v }
  else if k = 3 then { a with d3 := v } else if k = 4 then { a with d4 := v }
  else if k = 5 then { a with d5 := v } else if k = 6 then { a with d6 := v }
  else { a with extra := a.extra + v }

/-- move.py:14-26 -/
def ofRoll (r : Int × Int) : Avail :=
  if r.1 = 0 then {}
  else if r.1 = r.2 then ({} : Avail).put r.1 4
  else (({} : Avail).put r.1 1).put r.2 1

/-- `__len__`, move.py:44-48 -/
def len (a : Avail) : Nat := a.d1 + a.d2 + a.d3 + a.d4 + a.d5 + a.d6 + a.extra

/-- `die in self`, move.py:36-38 -/
def contains (a : Avail) (die : Int) : Py Bool :=
  match a.count die with
  | some n => .ok (decide (n > 0))
  | none => .error .assertion

/-- move.py:50-55 -/
def consume (a : Avail) (die : Int) : Py Avail :=
  match a.count die with
  | some n => if n > 0 then .ok (a.put die (n - 1)) else .error .bareRaise
  | none => .error .assertion

/-- move.py:57-59 -/
def add (a : Avail) (die : Int) : Py Avail :=
  match a.count die with
  | some n => .ok (a.put die (n + 1))
  | none => .error .assertion

/-- move.py:70-74 -/
def getMax (a : Avail) : Option Int :=
  if a.d6 > 0 then some 6 else if a.d5 > 0 then some 5 else if a.d4 > 0 then some 4
  else if a.d3 > 0 then some 3 else if a.d2 > 0 then some 2 else if a.d1 > 0 then some 1 else none

end Avail

/-! ### Move -/

/-- The loop of move.py:137-140 over the reversed list `ps`: drop the first element invertible with
`pm`.  `list.remove` looks for the object found; the objects in the list are taken to be distinct. -/
def removeInvertible (pm : PartialMove) : List PartialMove → Option (List PartialMove)
  | [] => none
  | p :: ps => if p.areInvertible pm then some ps else (removeInvertible pm ps).map (p :: ·)

/-- `Move.append`, move.py:135-141 -/
def moveAppend (pms : List PartialMove) (pm : PartialMove) : List PartialMove :=
  match removeInvertible pm pms.reverse with
  | some qs => qs.reverse
  | none => pms ++ [pm]

/-- First result of `Move.find`, move.py:148-151 -/
def moveFind (pms : List PartialMove) (dest : Int) : Option PartialMove :=
  pms.reverse.find? (fun pm => pm.dest = dest)

/-! ### MoveFactory -/

/-- move.py:171-183; the board is shared with the caller. -/
structure Factory where
  board : Board
  move : List PartialMove := []
  avail : Avail
deriving DecidableEq, Repr

namespace Factory

/-- `MoveFactory(b, move, available)`, move.py:171-183: an `available` without dice is replaced by the
whole roll. -/
def new (b : Board) (move : List PartialMove := []) (available : Option Avail := none) : Factory :=
  { board := b, move := move,
    avail := match available with
      | some a => if a.len ≠ 0 then a else Avail.ofRoll b.rolled
      | none => Avail.ofRoll b.rolled }

/-- move.py:189-196: the recorded move changes first, then the dice, then the board. -/
def append (f : Factory) (pm : PartialMove) : Step Factory :=
  let f1 := { f with move := moveAppend f.move pm }
  match (if pm.isUndo then f1.avail.add pm.die else f1.avail.consume pm.die) with
  | .error e => ⟨f1, some e⟩
  | .ok a =>
    let f2 := { f1 with avail := a }
    match f2.board.makePartialMove pm with
    | .error e => ⟨f2, some e⟩
    | .ok b => ⟨{ f2 with board := b }, none⟩

/-- move.py:198-201; stops at the first exception. -/
def addAll (f : Factory) : List PartialMove → Step Factory
  | [] => ⟨f, none⟩
  | pm :: pms =>
    match f.append pm with
    | ⟨f', none⟩ => f'.addAll pms
    | r => r

/-- move.py:258-304 -/
def sourceLoop (b : Board) (src : Int) : Nat → Avail → Py (Option PartialMove)
  | 0, _ => .error .diverges
  | fuel + 1, a =>
    match a.getMax with
    | none => .ok none
    | some die =>
      match b.hasChequerToMove src with
      | .error e => .error e
      | .ok false => .ok none
      | .ok true =>
        let dest := src - die
        if dest < 0 then
          match b.isOkToBearoffFrom src die with
          | .error e => .error e
          | .ok true => .ok (some ⟨die, src, OFF, false⟩)
          | .ok false =>
            match a.consume die with
            | .error e => .error e
            | .ok a' => if a.len ≠ 0 then sourceLoop b src fuel a' else .ok none
        else if isPoint dest then
          match b.isOpenToLand dest with
          | .error e => .error e
          | .ok true =>
            match b.isHittingToLand dest with
            | .error e => .error e
            | .ok h => .ok (some ⟨die, src, dest, h⟩)
          | .ok false =>
            match a.consume die with
            | .error e => .error e
            | .ok a' => sourceLoop b src fuel a'
        else .ok none

/-- `guess_your_single_pm_from_source(src, b, available)` -/
def fromSource (b : Board) (a : Avail) (src : Int) : Py (Option PartialMove) :=
  sourceLoop b src (a.len + 1) a

/-- move.py:306-344.  (For `dest == -1` the dice are used up in the caller's object; the default is a
copy, and the one caller that passes its own, move.py:439-441, passes `None`.) -/
def destLoop (b : Board) (dest : Int) : Nat → Avail → Py (Option PartialMove)
  | 0, _ => .error .diverges
  | fuel + 1, a =>
    match a.getMax with
    | none => .ok none
    | some die =>
      if dest = -1 then
        match b.findSrcOfBearoffWith die with
        | .error e => .error e
        | .ok (some src) => .ok (some ⟨die, src, dest, false⟩)
        | .ok none =>
          match a.consume die with
          | .error e => .error e
          | .ok a' => destLoop b dest fuel a'
      else if isPoint dest then
        match b.isOpenToLand dest with
        | .error e => .error e
        | .ok false => .ok none
        | .ok true =>
          match b.hasChequerToMove (dest + die) with
          | .error e => .error e
          | .ok true =>
            match b.isHittingToLand dest with
            | .error e => .error e
            | .ok h => .ok (some ⟨die, dest + die, dest, h⟩)
          | .ok false =>
            match a.consume die with
            | .error e => .error e
            | .ok a' => destLoop b dest fuel a'
      else .error .assertion

/-- `guess_your_single_pm_from_dest(dest, b, available)` -/
def fromDest (b : Board) (a : Avail) (dest : Int) : Py (Option PartialMove) :=
  destLoop b dest (a.len + 1) a

/-- A question asked to the factory: its answer and the board afterwards. -/
structure Asked (α : Type) where
  st : Board
  res : Py α
deriving DecidableEq, Repr

/-- move.py:346-397.  The `print pm` of line 370 names points 0..24 and off and cannot raise. -/
def multiLoop (b : Board) (dest : Int) :
    Nat → Int → Avail → List PartialMove → Asked (Option (List PartialMove))
  | 0, _, _, _ => ⟨b, .error .diverges⟩
  | fuel + 1, src, a, mv =>
    if ¬ src > dest then ⟨b, .error .assertion⟩
    else
      match fromSource b a src with
      | .error e => ⟨b, .error e⟩
      | .ok none => ⟨b, .ok none⟩
      | .ok (some pm) =>
        if pm.src ≠ src then ⟨b, .error .assertion⟩
        else if pm.dest = dest then ⟨b, .ok (some (moveAppend mv pm))⟩
        else
          match a.consume pm.die with
          | .error e => ⟨b, .error e⟩
          | .ok a' =>
            if pm.dest > dest then
              match b.makePartialMove pm with
              | .error e => ⟨b, .error e⟩
              | .ok b1 =>
                match multiLoop b1 dest fuel pm.dest a' (moveAppend mv pm) with
                | ⟨b2, .error e⟩ => ⟨b2, .error e⟩
                | ⟨b2, .ok r⟩ =>
                  match b2.makePartialMove pm.inverse with
                  | .error e => ⟨b2, .error e⟩
                  | .ok b3 => ⟨b3, .ok r⟩
            else multiLoop b dest fuel src a' mv

/-- `guess_your_multiple_pms(src, dest)` on board `b` with dice `a` -/
def multiplePms (b : Board) (a : Avail) (src dest : Int) : Asked (Option (List PartialMove)) :=
  multiLoop b dest (a.len + 1) src a []

/-- move.py:399-425, with the dice of the copy (never read) left out.  Every recorded movement goes
forward in the uses considered, so the point `src` grows and `dest - src` bounds the recursion. -/
def undoLoop (move : List PartialMove) (dest : Int) :
    Nat → Board → Int → List PartialMove → Asked (Option (List PartialMove))
  | 0, b, _, _ => ⟨b, .error .diverges⟩
  | fuel + 1, b, src, mv =>
    if ¬ src < dest then ⟨b, .error .assertion⟩
    else
      match moveFind move src with
      | none => ⟨b, .ok none⟩
      | some pm =>
        let inv := pm.inverse
        let mv' := moveAppend mv inv
        if inv.dest = dest then ⟨b, .ok (some mv')⟩
        else if inv.dest < dest then
          match b.makePartialMove inv with
          | .error e => ⟨b, .error e⟩
          | .ok b1 => undoLoop move dest fuel b1 inv.dest mv'
        else ⟨b, .ok none⟩

/-- `guess_your_multiple_partial_undoes(src, dest)` -/
def multipleUndoes (f : Factory) (src dest : Int) : Asked (Option (List PartialMove)) :=
  undoLoop f.move dest ((dest - src).toNat + 1) f.board src []

/-- move.py:427-446.  `available.consume` and `make_partial_move` return `None`, so the second question
is asked with the factory's own dice, on its own board, which has the first movement made on it.  The
dice of line 430 are those of the roll. -/
def makingPoint (f : Factory) (dest : Int) : Asked (Option (List PartialMove)) :=
  match fromDest f.board f.avail dest with
  | .error e => ⟨f.board, .error e⟩
  | .ok none => ⟨f.board, .ok none⟩
  | .ok (some pm) =>
    match (Avail.ofRoll f.board.rolled).consume pm.die with
    | .error e => ⟨f.board, .error e⟩
    | .ok _ =>
      match f.board.makePartialMove pm with
      | .error e => ⟨f.board, .error e⟩
      | .ok b1 =>
        match fromDest b1 f.avail dest with
        | .error e => ⟨b1, .error e⟩
        | .ok none => ⟨b1, .ok none⟩
        | .ok (some pm') => ⟨b1, .ok (some [pm, pm'])⟩

/-- The loop move.py:212-215 (and 251-255): can a chequer on one of `pts` be moved? -/
def anySingle (b : Board) (a : Avail) : List Int → Py Bool
  | [] => .ok false
  | pt :: pts =>
    match b.hasChequerToMove pt with
    | .error e => .error e
    | .ok false => anySingle b a pts
    | .ok true =>
      match fromSource b a pt with
      | .error e => .error e
      | .ok (some _) => .ok true
      | .ok none => anySingle b a pts

/-- The inner loop move.py:237-243 over the destinations. -/
def anyDoubleTo (b : Board) (a : Avail) (src : Int) : List Int → Asked Bool
  | [] => ⟨b, .ok false⟩
  | dst :: dsts =>
    match b.isOpenToLand dst, b.isHittingToLand dst with
    | .error e, _ => ⟨b, .error e⟩
    | .ok false, .error e => ⟨b, .error e⟩
    | .ok false, .ok false => anyDoubleTo b a src dsts
    | _, _ =>
      match multiplePms b a src dst with
      | ⟨b', .error e⟩ => ⟨b', .error e⟩
      | ⟨b', .ok (some pms)⟩ =>
        if pms.length = 2 then ⟨b', .ok true⟩ else anyDoubleTo b' a src dsts
      | ⟨b', .ok none⟩ => anyDoubleTo b' a src dsts

/-- The loop move.py:235-243 over the sources. -/
def anyDouble (b : Board) (a : Avail) : List Int → Asked Bool
  | [] => ⟨b, .ok false⟩
  | src :: srcs =>
    match b.hasChequerToMove src with
    | .error e => ⟨b, .error e⟩
    | .ok false => anyDouble b a srcs
    | .ok true =>
      match anyDoubleTo b a src (pyRange 0 src) with
      | ⟨b', .ok false⟩ => anyDouble b' a srcs
      | r => r

/-- Steps move.py:222-256: the played chequers are taken back on the same board and never replayed. -/
def pickupRewound (f : Factory) : Asked Bool :=
  match (Factory.new f.board f.move (some f.avail)).addAll (f.move.map PartialMove.inverse) with
  | ⟨mf, some e⟩ => ⟨mf.board, .error e⟩
  | ⟨mf, none⟩ =>
    if mf.move ≠ [] then ⟨mf.board, .error .assertion⟩
    else
      match anyDouble mf.board mf.avail (pyRange 0 24) with
      | ⟨b, .error e⟩ => ⟨b, .error e⟩
      | ⟨b, .ok true⟩ => ⟨b, .ok false⟩
      | ⟨b, .ok false⟩ =>
        if f.avail.getMax ≠ mf.avail.getMax then ⟨b, .ok true⟩
        else
          match mf.avail.getMax with
          | none => ⟨b, .error .typeError⟩ -- `rolled=(None, 0)`; unreachable, there are dice
          | some die =>
            match anySingle b (Avail.ofRoll (die, 0)) (pyRange 0 24) with
            | .error e => ⟨b, .error e⟩
            | .ok c => ⟨b, .ok (!c)⟩

/-- move.py:203-220, then the rest above. -/
def isLegalToPickupDice (f : Factory) : Asked Bool :=
  let b := f.board
  let afterBar : Asked Bool :=
    match anySingle b f.avail (pyRange 0 24) with
    | .error e => ⟨b, .error e⟩
    | .ok true => ⟨b, .ok false⟩
    | .ok false =>
      match b.isDoubles with
      | .error e => ⟨b, .error e⟩
      | .ok true => ⟨b, .ok true⟩
      | .ok false => f.pickupRewound
  if b.rolled = (0, 0) then ⟨b, .error .assertion⟩
  else if f.avail.len = 0 then ⟨b, .ok true⟩
  else
    match b.hasChequerToMove BAR with
    | .error e => ⟨b, .error e⟩
    | .ok true =>
      match fromSource b f.avail BAR with
      | .error e => ⟨b, .error e⟩
      | .ok none => ⟨b, .ok true⟩
      | .ok (some _) => afterBar
    | .ok false => afterBar

/-- move.py:185-187 -/
def pickupDice (f : Factory) : Step Board :=
  match f.isLegalToPickupDice with
  | ⟨b, .error e⟩ => ⟨b, some e⟩
  | ⟨b, .ok false⟩ => ⟨b, some .assertion⟩
  | ⟨b, .ok true⟩ => b.pickupDice

end Factory
end Bglib
