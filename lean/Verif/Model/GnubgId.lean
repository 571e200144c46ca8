import Verif.Model.Base64
import Verif.Model.Board
/-
Model of `bglib/encoding/gnubgid.py`.
-/
namespace Bglib

/-! ### Position ID -/

/-- The bits `seq2bytes` writes, gnubgid.py:49-54: for each count as many ones, then a zero.
`range(0, x)` of a negative `x` is empty. -/
def seqBits : List Int → List Bool
  | [] => []
  | x :: xs => List.replicate x.toNat true ++ false :: seqBits xs

/-- `ByteContext.write`, `pack`, `pad` and the generator loop of `seq2bytes`, gnubgid.py:17-61.  `byte`
and `cnt` are the context, `total` the number of full bytes yielded.  At the end a started byte is padded
(without counting it), then zero bytes follow until `total` is 9. -/
def packBits (byte cnt total : Nat) : List Bool → List Nat
  | [] => (if cnt ≠ 0 then [byte] else []) ++ List.replicate (9 - total) 0
  | b :: bs =>
    let byte' := byte ||| ((if b then 1 else 0) <<< cnt)
    if cnt + 1 < 8 then packBits byte' (cnt + 1) total bs
    else byte' :: packBits 0 0 (total + 1) bs

/-- gnubgid.py:42-61 -/
def seq2bytes (xs : List Int) : List Nat := packBits 0 0 0 (seqBits xs)

/-- Bits of a byte, least significant first: gnubgid.py:67-69. -/
def byteBits (b : Nat) : List Bool := (List.range 8).map (fun j => b.testBit j)

/-- The counter loop of gnubgid.py:65-74; a last `yield n` always follows. -/
def runs (n : Int) : List Bool → List Int
  | [] => [n]
  | true :: bs => runs (n + 1) bs
  | false :: bs => n :: runs 0 bs

/-- gnubgid.py:64-74 -/
def byts2seq (bytes : List Nat) : List Int := runs 0 (bytes.flatMap byteBits)

/-- gnubgid.py:85-87 -/
def twosideEncode (xs : List Int × List Int) : List Nat := seq2bytes (xs.1 ++ xs.2)

/-- gnubgid.py:90-92 -/
def twosideDecode (s : List Nat) : List Int × List Int :=
  let xs := byts2seq s
  (xs.take 25, (xs.take 50).drop 25)

/-- gnubgid.py:94-96 -/
def encodePosition (xs : List Int × List Int) : Text := rstripPad (b64encode (twosideEncode xs))

/-- gnubgid.py:99-115 -/
def decodePosition (s : Text) : Py (List Int × List Int) := do
  let bytes ← decodeText s
  let r := twosideDecode bytes
  if r.1.length = 25 ∧ r.2.length = 25 then return r else .error .decodeError

/-! ### Match ID -/

/-- The fields of `MatchProxy.index`, gnubgid.py:160-172, with the two-part fields split as
`DoubleIntValidator` (gnubgid.py:140-155) splits them. -/
inductive MField where
  | cube | owner | onAction | crawford | gameState | inner | doubled | resign
  | die1 | die2 | length | score1 | score2
deriving DecidableEq, Repr

/-- First bit of a field, gnubgid.py:161-171; halves as in gnubgid.py:143-145. -/
def MField.start : MField → Nat
  | .cube => 0 | .owner => 4 | .onAction => 6 | .crawford => 7 | .gameState => 8 | .inner => 11
  | .doubled => 12 | .resign => 13 | .die1 => 15 | .die2 => 15 + (21 - 15) / 2 | .length => 21
  | .score1 => 36 | .score2 => 36 + (66 - 36) / 2

/-- End (exclusive) of a field. -/
def MField.stop : MField → Nat
  | .cube => 4 | .owner => 6 | .onAction => 7 | .crawford => 8 | .gameState => 11 | .inner => 12
  | .doubled => 13 | .resign => 15 | .die1 => 15 + (21 - 15) / 2 | .die2 => 21 | .length => 36
  | .score1 => 36 + (66 - 36) / 2 | .score2 => 66

/-- Low `w` bits of a number, least significant first (contract of `tonic.BitsArray`). -/
def natBits : Nat → Nat → List Bool
  | 0, _ => []
  | w + 1, v => (v % 2 == 1) :: natBits w (v / 2)

/-- Value of bits, least significant first (`int(bitsarray)`). -/
def bitsVal : List Bool → Nat
  | [] => 0
  | b :: bs => (if b then 1 else 0) + 2 * bitsVal bs

/-- `BitsArray.set_shiftable(value, begin, end)`: store `value` in the bits `begin..end-1`.  (Contract
of the external `tonic`; values that do not fit are outside it.) -/
def writeField (d : List Bool) (f : MField) (v : Nat) : List Bool :=
  d.take f.start ++ natBits (f.stop - f.start) v ++ d.drop f.stop

/-- `int(bitsarray[begin:end])`. -/
def readField (d : List Bool) (f : MField) : Nat := bitsVal ((d.take f.stop).drop f.start)

/-- `BitsArray(66)`: 66 zero bits, gnubgid.py:185. -/
def emptyBits : List Bool := List.replicate 66 false

/-- Bytes from bits, least significant first, the last byte filled with zeros
(`BitsArray.binary` with `endian='<'`, gnubgid.py:191).  `n` is the number of bytes. -/
def bitsToBytes : Nat → List Bool → List Nat
  | 0, _ => []
  | n + 1, bs => bitsVal (bs.take 8) :: bitsToBytes n (bs.drop 8)

/-- `BitsArray(66, binary=s, endian='<')` for a string of 9 bytes. -/
def bytesToMatch (bytes : List Nat) : List Bool := (bytes.flatMap byteBits).take 66

/-- gnubgid.py:194-195; 66 bits are 9 bytes. -/
def encodeMatch (d : List Bool) : Text := rstripPad (b64encode (bitsToBytes 9 d))

/-- gnubgid.py:197-210.  For a decoded string that is not 9 bytes long the behaviour of
`tonic.BitsArray` is not part of the repository; the model says `notImplemented`. -/
def decodeMatch (s : Text) : Py (List Bool) := do
  let bytes ← decodeText s
  if bytes.length = 9 then return bytesToMatch bytes else .error .notImplemented

/-! ### Whole boards -/

/-- The assignments gnubgid.py:214-224.  Fields are naturals here; `Int.toNat` is applied to the board's
integers, so that a negative value is outside the contract of `set_shiftable`. -/
def matchOf (b : Board) : List Bool :=
  let w (d : List Bool) (f : MField) (v : Int) := writeField d f v.toNat
  let d := w emptyBits .cube b.cube
  let d := w d .owner b.cubeOwner
  let d := w d .onAction b.onAction
  let d := w d .crawford (if b.crawford then 1 else 0)
  let d := w d .gameState b.gameState
  let d := w d .inner b.onInnerAction
  let d := w d .doubled (if b.doubled then 1 else 0)
  let d := w d .resign b.resignOffer
  let d := w d .die1 b.rolled.1
  let d := w d .die2 b.rolled.2
  let d := w d .length b.matchLength
  let d := w d .score1 b.score.1
  w d .score2 b.score.2

/-- gnubgid.py:212-238: (position ID, match ID).  `mp.on_action` is read back from the bits. -/
def gnubgEncode (b : Board) : Py (Text × Text) :=
  let mp := matchOf b
  let mid := encodeMatch mp
  if (readField mp .onAction : Int) = YOU then
    .ok (encodePosition (b.position.2, b.position.1), mid)
  else if (readField mp .onAction : Int) = HIM then
    .ok (encodePosition (b.position.1, b.position.2), mid)
  else .error .assertion

/-- The attribute assignments gnubgid.py:243-253. -/
def setMatch (b : Board) (mp : List Bool) : Board :=
  { b with
    cube := readField mp .cube
    cubeOwner := readField mp .owner
    onAction := readField mp .onAction
    crawford := readField mp .crawford != 0
    gameState := readField mp .gameState
    onInnerAction := readField mp .inner
    doubled := readField mp .doubled != 0
    resignOffer := readField mp .resign
    rolled := (readField mp .die1, readField mp .die2)
    matchLength := readField mp .length
    score := (readField mp .score1, readField mp .score2) }

/-- Board afterwards and the exception raised, if any. -/
structure DecodeResult where
  board : Board
  err : Option PyErr := none
deriving DecidableEq, Repr

/-- gnubgid.py:240-278 on the editor `b`. -/
def gnubgDecode (b : Board) (pid mid : Text) : DecodeResult :=
  match decodeMatch mid with
  | .error e => ⟨b, some e⟩
  | .ok mp =>
    let b1 := setMatch b mp
    if b1.gameState = ON_GOING ∧ b1.matchLength = 0 ∧
        (b1.score.1 > b1.matchLength ∨ b1.score.2 > b1.matchLength) then
      ⟨b1, some .inconsistentData⟩
    else match decodePosition pid with
      | .error e => ⟨b1, some e⟩
      | .ok (onAction, opp) =>
        if readField mp .onAction = 0 then ⟨{ b1 with position := (opp, onAction) }, none⟩
        else if readField mp .onAction = 1 then ⟨{ b1 with position := (onAction, opp) }, none⟩
        else ⟨b1, some .inconsistentData⟩

end Bglib
