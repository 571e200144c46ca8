import Verif.Model.Board
/-
Model of `bglib/encoding/dbbyte.py`.  A byte string is a list of naturals below 256.
-/
namespace Bglib

/-- dbbyte.py:16-22 -/
def signedOrd (o : Nat) : Int := if o > 127 then (o : Int) - 256 else o

/-- dbbyte.py:24-30 -/
def signedChr (n : Int) : Py Nat :=
  if ¬ (-129 < n) then .error .assertion
  else if ¬ (n < 128) then .error .assertion
  else if n < 0 then .ok (256 + n).toNat
  else .ok n.toNat

/-- dbbyte.py:33-44.  The list comprehension stops at the first failing `signedchr`. -/
def dbEncode (xs : List Int × List Int) : Py (List Nat) :=
  if xs.1.length ≠ 25 ∨ xs.2.length ≠ 25 then .error .assertion
  else
    let onaction := 0 :: xs.1
    let opponent := 0 :: xs.2
    (List.range 26).mapM fun i => signedChr (onaction.getD i 0 - opponent.getD (25 - i) 0)

/-- dbbyte.py:47-54 -/
def dbDecode (s : List Nat) : Py (List Int × List Int) :=
  if s.length ≠ 26 then .error .assertion
  else
    let onaction := s.map fun c => if signedOrd c > 0 then signedOrd c else 0
    let opponent := s.reverse.map fun c => if signedOrd c < 0 then - signedOrd c else 0
    .ok (onaction.drop 1, opponent.drop 1)

/-- dbbyte.py:57-61; `zip` stops at the shorter string. -/
def dbDistance (xs ys : List Nat) : Int :=
  ((xs.zip ys).map fun p => (signedOrd p.1 - signedOrd p.2) ^ 2).foldl (· + ·) 0

/-- `DatabaseBytesExpression`, dbbyte.py:64-83: the attributes of the board, with the position as
bytes.  The field `board` holds the other attributes (its `position` is not used). -/
structure DbExpr where
  bytes : List Nat
  board : Board

/-- dbbyte.py:65-82 -/
def dbExpr (b : Board) : Py DbExpr :=
  if b.onAction = YOU then do return ⟨← dbEncode b.position, b⟩
  else if b.onAction = HIM then do return ⟨← dbEncode (b.position.2, b.position.1), b⟩
  else .error .assertion

/-- `tomodel`, dbbyte.py:92-105 -/
def DbExpr.toModel (e : DbExpr) : Py Board :=
  if e.board.onAction = YOU then do return { e.board with position := ← dbDecode e.bytes }
  else if e.board.onAction = HIM then do
    let p ← dbDecode e.bytes
    return { e.board with position := (p.2, p.1) }
  else .error .assertion

end Bglib
