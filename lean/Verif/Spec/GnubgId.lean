import Verif.Spec.Rules
import Verif.Model.GnubgId
/-
The GNU Backgammon ID formats, written from the GNU Backgammon manual and independent of the model.
-/
namespace Bglib.Spec

/-- The bit string of a position: for each of the 50 places as many ones as chequers, then a zero. -/
def positionBits (p : List Int × List Int) : List Bool :=
  (p.1 ++ p.2).flatMap (fun n => List.replicate n.toNat true ++ [false])

/-- Byte `i` of a key: bits `8i .. 8i+7`, the first one least significant; missing bits are zero. -/
def keyByte (bits : List Bool) (i : Nat) : Nat :=
  ((List.range 8).map (fun j => if bits.getD (8 * i + j) false then 2 ^ j else 0)).sum

/-- The 10-byte position key. -/
def positionKey (p : List Int × List Int) : List Nat :=
  (List.range 10).map (keyByte (positionBits p))

/-- The standard position ID: base64 of the key, without padding. -/
def positionId (p : List Int × List Int) : Text := (b64encode (positionKey p)).take 14

/-- Characters of base64. -/
def isB64 (c : Char) : Bool := c.isAlphanum || c == '+' || c == '/'

/-- Documented place of a match field in the 66-bit match key: first bit and width. -/
def layout : MField → Nat × Nat
  | .cube => (0, 4) | .owner => (4, 2) | .onAction => (6, 1) | .crawford => (7, 1)
  | .gameState => (8, 3) | .inner => (11, 1) | .doubled => (12, 1) | .resign => (13, 2)
  | .die1 => (15, 3) | .die2 => (18, 3) | .length => (21, 15) | .score1 => (36, 15)
  | .score2 => (51, 15)

/-- A byte string as a little-endian number. -/
def leNum : List Nat → Nat
  | [] => 0
  | b :: bs => b + 256 * leNum bs

/-- The value last assigned to a field in a series of assignments, else the given start value. -/
def lastAssigned (f : MField) (start : Nat) : List (MField × Nat) → Nat
  | [] => start
  | (g, v) :: rest => lastAssigned f (if g = f then v else start) rest

/-- A board whose fields fit the ID format. -/
structure Fits (b : Board) : Prop where
  row1 : Row b.position.1
  row2 : Row b.position.2
  cube : b.cube < 16
  owner : 0 ≤ b.cubeOwner ∧ b.cubeOwner < 4
  onAction : b.onAction = 0 ∨ b.onAction = 1
  gameState : 0 ≤ b.gameState ∧ b.gameState < 8
  inner : b.onInnerAction = 0 ∨ b.onInnerAction = 1
  resign : 0 ≤ b.resignOffer ∧ b.resignOffer < 4
  die1 : 0 ≤ b.rolled.1 ∧ b.rolled.1 < 8
  die2 : 0 ≤ b.rolled.2 ∧ b.rolled.2 < 8
  length : 0 ≤ b.matchLength ∧ b.matchLength < 32768
  score1 : 0 ≤ b.score.1 ∧ b.score.1 < 32768
  score2 : 0 ≤ b.score.2 ∧ b.score.2 < 32768

end Bglib.Spec
