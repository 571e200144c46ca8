import Verif.Spec.Rules
import Verif.Model.Text
import Verif.Model.Board
/-
Text formats written independently of the decoders: eXtreme Gammon's XGID and the FIBS board line.
-/
namespace Bglib.Spec

/-- Fields joined by colons. -/
def joinColon : List Text → Text
  | [] => []
  | [f] => f
  | f :: fs => f ++ ':' :: joinColon fs

/-- The letter for `n` chequers: `-` for none, else the `n`-th letter counted from `first`. -/
def chequerLetter (first : Char) (n : Int) : Char :=
  if n = 0 then '-' else Char.ofNat (first.toNat + n.toNat - 1)

/-- One character of an XGID board: `upper` and `lower` chequers on that place. -/
def xgChar (upper lower : Int) : Char :=
  if upper ≠ 0 then chequerLetter 'A' upper else chequerLetter 'a' lower

/-- The 26 board characters: the bar of the lower-case player, the points 1..24 as the upper-case player
counts them, the bar of the upper-case player.  In bglib the lower-case player is "you" (row 1) and the
upper-case player "him" (row 2). -/
def xgBoard (p : List Int × List Int) : Text :=
  (List.range 26).map fun k =>
    if k = 0 then xgChar 0 (cnt p.1 24)
    else if k = 25 then xgChar (cnt p.2 24) 0
    else xgChar (cnt p.2 (k - 1)) (cnt p.1 (24 - k))

/-- Player codes of XGID: -1 the lower-case player, 1 the upper-case player, 0 the centre. -/
def xgPlayer (who : Int) : Int := if who = 0 then -1 else if who = 1 then 1 else 0

/-- The XGID of a board; `cubeMax` is the last field. -/
def xgid (b : Board) (cubeMax : Text) : Text :=
  joinColon [xgBoard b.position, pyStr b.cube, pyStr (xgPlayer b.cubeOwner), pyStr (xgPlayer b.onAction),
    [digitChar b.rolled.1.toNat, digitChar b.rolled.2.toNat], pyStr b.score.2, pyStr b.score.1,
    (if b.crawford then ['1'] else ['0']), pyStr b.matchLength, cubeMax]

/-- Boards that XGID can express. -/
structure XgOk (b : Board) : Prop where
  row1 : Row b.position.1
  row2 : Row b.position.2
  max1 : ∀ i, cnt b.position.1 i ≤ 15
  max2 : ∀ i, cnt b.position.2 i ≤ 15
  apart : ∀ i < 24, cnt b.position.1 i = 0 ∨ cnt b.position.2 (23 - i) = 0
  owner : b.cubeOwner = 0 ∨ b.cubeOwner = 1 ∨ b.cubeOwner = 3
  turn : b.onAction = 0 ∨ b.onAction = 1
  die1 : 0 ≤ b.rolled.1 ∧ b.rolled.1 ≤ 9
  die2 : 0 ≤ b.rolled.2 ∧ b.rolled.2 ≤ 9
  length : 0 ≤ b.matchLength
  money : b.matchLength = 0 → b.crawford = false

/-- A text for which decoding may succeed: ten fields separated by colons, and every field readable. -/
structure XgShape (fields : List Text) (isInt : Text → Int → Prop) : Prop where
  ten : fields.length = 10
  board : (fields.getD 0 []).length = 26
  cube : ∃ n, isInt (fields.getD 1 []) n
  owner : ∃ n, isInt (fields.getD 2 []) n ∧ (n = -1 ∨ n = 0 ∨ n = 1)
  turn : ∃ n, isInt (fields.getD 3 []) n ∧ (n = -1 ∨ n = 1)
  dice : ∃ c d, fields.getD 4 [] = [c, d] ∧ (∃ m, isInt [c] m) ∧ ∃ n, isInt [d] n
  score1 : ∃ n, isInt (fields.getD 5 []) n
  score2 : ∃ n, isInt (fields.getD 6 []) n
  flag : ∃ n, isInt (fields.getD 7 []) n ∧ (n = 0 ∨ n = 1)
  length : ∃ n, isInt (fields.getD 8 []) n ∧ 0 ≤ n

/-- The place FIBS uses for the place `p` (0..23 points counted from the own home, 24 the bar) of a player
who plays in `direction` (-1: from 24 down to 1, bar at 25; 1: from 1 up to 24, bar at 0). -/
def fibsPlace (direction : Int) (p : Nat) : Nat := if direction = -1 then p + 1 else 24 - p

/-- Chequers of `colour` (1 or -1) in a FIBS entry: the sign is the colour, the size the number. -/
def fibsCount (colour entry : Int) : Int :=
  if colour = 1 then (if 0 < entry then entry else 0) else (if entry < 0 then -entry else 0)

/-- A FIBS board line: the word `board`, two names, then 50 numbers (the fields 3 to 52). -/
def fibsLine (you him : Text) (nums : List Int) : Text :=
  joinColon (['b','o','a','r','d'] :: you :: him :: nums.map pyStr)

/-- The number in field `i` (3..52) of a line. -/
def fibsNum (nums : List Int) (i : Nat) : Int := nums.getD (i - 3) 0

/-- What a FIBS line says about cube ownership: who may double. 0 you, 1 him, 3 centre. -/
def fibsOwner (youMay heMay : Int) : Int :=
  if youMay = 1 ∧ heMay = 0 then 0 else if youMay = 0 ∧ heMay = 1 then 1 else 3

end Bglib.Spec
