import Verif.Model.Xgid
import Verif.Model.Fibs
import Verif.Model.DbByte
import Verif.Model.Bearoff
import Verif.Model.Util
import Verif.Model.Regex
/-
Evidence for the models of the encodings: the tests of `encoding/xgid_test.py`, `gnubgid_test.py`, `dbbyte_test.py`,
`FIBS_test.py`, `bearoff/gnubgdb_test.py`, `bearoff/trice_test.py` and `model/util_test.py`.
-/
namespace Bglib.Check
open Bglib

/-- `encoding/xgid_test.py`: the same board written by two programs. -/
def xgidTests : List (String × Text × Text × Text) := [
  ("xgid2gnubg_1", t!"-b---BD-B---cE---c-eb---B-:0:0:1:00:3:4:0:5:10", t!"sM/BATCwZ/ABMA", t!"cAmgAEAAGAAA"),
  ("xgid2gnubg_0", t!"-B-BAaCBC-----a-----cdBcc-:1:-1:1:66:1:4:0:5:10", t!"d96BAAKz3A4ADA", t!"QQm7AEAACAAA"),
  ("xgid2gnubg_bgonline_HowToTrapAnAnchor", t!"-----bBBBCBB----A--A---cc-:1:1:1:12:0:0:0:0:10", t!"dwAABsC22yACAA", t!"UYkIAAAAAAAA"),
  ("xgid2gnubg_jbl_LateHitOriginal", t!"-bCCa-B-a------a---bbbbb-A:1:-1:-1:00:0:0:3:0:10", t!"7hgAANm2ISDEAA", t!"AQEAAAAAAAAA"),
  ("xgid2gnubg_jbl_LateHitRef1", t!"-DC---------------bcccbbB-:1:-1:-1:00:0:0:3:0:10", t!"7wAAwNjubgAAAA", t!"AQEAAAAAAAAA"),
  ("xgid2gnubg_jbl_LateHitRef2", t!"-DCa---------------ccccbB-:1:-1:-1:00:0:0:3:0:10", t!"7wAAwNjdHQAgAA", t!"AQEAAAAAAAAA"),
  ("xgid2gnubg_jbl_LateHitRef3", t!"-DCaa--------------cccbbB-:1:-1:-1:00:0:0:3:0:10", t!"7wAAwNjuDgAoAA", t!"AQEAAAAAAAAA"),
  ("xgid2gnubg_bgonline_25ptMatchVMoney", t!"-BAC-----------------abab-:1:1:1:00:0:0:0:0:10", t!"awEAgHUAAAAAAA", t!"UQkAAAAAAAAA"),
  ("xgid2gnubg_itikawa_SecondWorstRoll", t!"---CBbB-B----E-a--bcbcb-A-:1:1:1:21:0:1:0:5:10", t!"7HYjAAPczOADIA", t!"UQmlABAAAAAA"),
  ("xgid2gnubg_itikawa_DenmarkVWorldAtNordic2010", t!"-Ba-CBBCB----------Abc-ed-:1:1:1:00:7:1:0:15:16", t!"73MDABDjthsAAQ", t!"UQngARAAOAAA"),
  ("xgid2gnubg_itikawa_OhsakaOpenQuiz2010", t!"--BBCbB---BBd------c-Bbca-:0:0:1:33:0:0:3:0:10", t!"3TjgAQO2M2wABg", t!"cIkNAAAAAAAA"),
  ("xgid2gnubg_Festival2009QuizQ01", t!"-aBa--DaB---cE---d-e---AA-:0:0:1:56:3:1:0:5:8", t!"4PPgICSGZ/ABKA", t!"cIm6ABAAGAAA"),
  ("xgid2gnubg_Festival2009QuizQ02", t!"-bB-BBC-B---bBA--bbdc---A-:0:0:1:35:0:0:3:0:8", t!"cG+DATBmO4MFIA", t!"cIkVAAAAAAAA"),
  ("xgid2gnubg_Festival2009QuizQ03", t!"---a--EBBBB-b----ccd--b-B-:0:0:1:12:1:0:0:3:8", t!"jHcHAwjg2zYAMA", t!"cIloAAAACAAA"),
  ("xgid2gnubg_Festival2009QuizQ04", t!"-a---BDaCb---A--b-bcbbCB--:1:1:1:55:0:2:0:5:8", t!"2G4GTCCw5yCAGw", t!"UYm2ACAAAAAA"),
  ("xgid2gnubg_Festival2009QuizQ05", t!"--BBCBC-a-----A----cBce-c-:0:0:1:32:0:0:3:0:8", t!"5zsHQAC22wECAw", t!"cIkJAAAAAAAA"),
  ("xgid2gnubg_Festival2009QuizQ06", t!"-B-BCaC-BB--b-ab-a-c-bb-aA:0:0:1:21:4:2:1:5:10", t!"2ZwsAwKzczYAQA", t!"8AmlACAAIAAA"),
  ("xgid2gnubg_Festival2009QuizQ07", t!"-A--b-D-D--BeB---c-e-AA---:0:0:1:66:0:0:3:0:8", t!"4HPwAQbB85gBCg", t!"cAkbAAAAAAAA"),
  ("xgid2gnubg_Festival2009QuizQ08", t!"--D-CaBbB---BBa---bbbc-b--:0:0:1:23:1:0:0:3:8", t!"5rYhYAKeM8MGAA", t!"cAltAAAACAAA"),
  ("xgid2gnubg_Festival2009QuizQ09", t!"-aa-B-DBB--AdB--ab-d-b--B-:0:0:1:51:0:0:3:0:10", t!"mGfhASiYt5EBMA", t!"cIkGAAAAAAAA"),
  ("xgid2gnubg_Festival2009QuizQ10", t!"-B-bABEAA--Ba---accc--b-A-:1:-1:1:43:0:0:3:0:8", t!"jLsLAQyjfcUAIA", t!"QQkOAAAAAAAA")]

/-- Money games written with the flag 3 (Jacoby rule and beavers) are refused: these tests of the authors fail. -/
def xgidRefused (t : String × Text × Text × Text) : Bool := (xgDecode {} t.2.1).err == some .inconsistentData

theorem xgid_tests : ∀ t ∈ xgidTests, (gnubgDecode {} t.2.2.1 t.2.2.2).err = none ∧
    if (splitChar ':' t.2.1)[7]? = some t!"3" then xgidRefused t = true
    else xgDecode {} t.2.1 = gnubgDecode {} t.2.2.1 t.2.2.2 := by decide +kernel

example : (xgidTests.filter xgidRefused).length = 10 := by decide +kernel

/-- `encoding/gnubgid_test.py`: boards read and written again. -/
theorem gnubgid_tests : ∀ t ∈ [(t!"vzsAAFhu2xFABA", t!"QYkqASAAIAAA"), (t!"s+sNAAhwtxsAGA", t!"QYlyASAAGAAA"),
      (t!"d5sBIQJurwcAQA", t!"AYH0ACAAAAAA"), (t!"29kDAICdOwAAAA", t!"cAmgACAAGAAA"), (t!"ZwAAwGwAAAAAAA", t!"cIkkAAAAAAAA")],
    (gnubgDecode {} t.1 t.2).err = none ∧ gnubgEncode (gnubgDecode {} t.1 t.2).board = .ok t := by decide +kernel

/-- `seq2bytes_test` expects five bytes; the code writes nine zero-filled bytes (and a tenth, begun) since gnubgid.py:57-59. -/
example : seq2bytes [0, 0, 0, 0, 0, 5, 2, 3, 0, 0, 0, 0, 4, 0, 0, 0, 0, 0, 0, 0, 0, 0, 0, 0, 0] =
    [0xe0, 0xdb, 0xc1, 0x03, 0x00] ++ List.replicate 5 0 := by decide +kernel
example : byts2seq [0xe0, 0xdb, 0xc1, 0x03, 0x00] =
    [0, 0, 0, 0, 0, 5, 2, 3, 0, 0, 0, 0, 4, 0, 0, 0, 0, 0, 0, 0, 0, 0, 0, 0, 0, 0, 0] := by decide +kernel
example : encodePosition ([6, 3, 3, 0, 0, 0, 0, 0, 0, 0, 0, 0, 0, 0, 0, 0, 0, 0, 0, 0, 0, 0, 0, 2, 1],
    [0, 3, 2, 2, 2, 3, 0, 0, 1, 0, 0, 0, 0, 0, 0, 0, 0, 1, 0, 0, 1, 0, 0, 0, 0]) = t!"vzsAAFhu2xFABA" := by decide +kernel
example : decodePosition t!"vzsAAFhu2xFABA" = .ok ([6, 3, 3, 0, 0, 0, 0, 0, 0, 0, 0, 0, 0, 0, 0, 0, 0, 0, 0, 0, 0, 0, 0, 2, 1],
    [0, 3, 2, 2, 2, 3, 0, 0, 1, 0, 0, 0, 0, 0, 0, 0, 0, 1, 0, 0, 1, 0, 0, 0, 0]) := by decide +kernel
example : gnubgEncode {} = .ok (t!"4HPwATDgc/ABMA", t!"MAAAAAAAAAAA") := by decide +kernel
/-- The example of the GNU Backgammon manual. -/
example : (bytesToMatch [0x41, 0x89, 0x2a, 0x01, 0x20, 0x00, 0x20, 0x00, 0x00]).map (fun b => if b then '1' else '0') =
    t!"100000101001000101010100100000000000010000000000000001000000000000" := by decide +kernel
example : (let b := setMatch {} (bytesToMatch [0x41, 0x89, 0x2a, 0x01, 0x20, 0x00, 0x20, 0x00, 0x00])
    (b.cube, b.cubeOwner, b.onAction, b.crawford, b.gameState, b.onInnerAction) = (1, 0, 1, false, 1, 1) ∧
    (b.doubled, b.resignOffer, b.rolled, b.matchLength, b.score) = (false, 0, (5, 2), 9, (2, 4))) := by decide +kernel
example : decodeMatch t!"QYkqASAAIAAA" = .ok (bytesToMatch [0x41, 0x89, 0x2a, 0x01, 0x20, 0x00, 0x20, 0x00, 0x00]) := by decide +kernel
/-- Texts with wrong padding: the tests expect a `TypeError` but also pass without one. -/
example : (gnubgDecode {} t!"29kDAICdOwAAA=" t!"cAmgACAAGAAA").err = some .typeError ∨
    (gnubgDecode {} t!"29kDAICdOwAAA=" t!"cAmgACAAGAAA").err = none := by decide +kernel
example : (gnubgDecode {} t!"29kDAICdOwAAAA" t!"cAmgACAAGAA=").err = some .typeError ∨
    (gnubgDecode {} t!"29kDAICdOwAAAA" t!"cAmgACAAGAA=").err = none := by decide +kernel

/-! `encoding/dbbyte_test.py` -/

def initialBytes : List Nat := [0, 0xfe, 0, 0, 0, 0, 5, 0, 3, 0, 0, 0, 0xfb, 5, 0, 0, 0, 0xfd, 0, 0xfb, 0, 0, 0, 0, 2, 0]

example : [0, 1, 0x7f, 0xff, 0x80].map signedOrd = [0, 1, 127, -1, -128] := by decide +kernel
example : [0, 1, 127, -1, -128].map signedChr = [.ok 0, .ok 1, .ok 0x7f, .ok 0xff, .ok 0x80] := by decide +kernel
example : ∀ i ∈ List.range 256, (signedChr ((i : Int) - 128)).map signedOrd = .ok ((i : Int) - 128) := by decide +kernel
example : dbEncode (({} : Board).position) = .ok initialBytes := by decide +kernel
example : dbDecode initialBytes = .ok ({} : Board).position := by decide +kernel
example : dbDistance initialBytes initialBytes = 0 := by decide +kernel
example : dbDistance initialBytes (initialBytes.set 24 1) = 1 := by decide +kernel
example : dbDistance initialBytes (initialBytes.set 12 0xfc) = 1 := by decide +kernel
example : dbDistance (initialBytes.set 24 0xfe) initialBytes = 16 := by decide +kernel
def hisOnly : List Int × List Int := (List.replicate 25 0, ({} : Board).position.2)
example : (dbExpr { position := hisOnly, onAction := YOU }).map (·.bytes) =
    .ok [0, 0xfe, 0, 0, 0, 0, 0, 0, 0, 0, 0, 0, 0xfb, 0, 0, 0, 0, 0xfd, 0, 0xfb, 0, 0, 0, 0, 0, 0] := by decide +kernel
example : (dbExpr { position := hisOnly, onAction := HIM }).map (·.bytes) =
    .ok [0, 0, 0, 0, 0, 0, 5, 0, 3, 0, 0, 0, 0, 5, 0, 0, 0, 0, 0, 0, 0, 0, 0, 0, 2, 0] := by decide +kernel
example : ((dbExpr { position := hisOnly, onAction := HIM }).bind DbExpr.toModel) = .ok { position := hisOnly, onAction := HIM } := by
  decide +kernel

/-! `encoding/FIBS_test.py` -/

def fibsLine : Text := t!"board:You:someplayer:3:0:0:0:-2:0:0:0:0:5:0:3:0:0:0:-5:5:0:0:0:-3:0:-5:0:0:0:0:2:0:1:6:2:0:0:1:1:1:0:1:-1:0:25:0:0:0:0:2:0:0:0"
example : (fibsParse fibsLine).map (fun f => (f.matchlength, f.yourScore, f.hisScore, f.board)) =
    some (3, 0, 0, [0, -2, 0, 0, 0, 0, 5, 0, 3, 0, 0, 0, -5, 5, 0, 0, 0, -3, 0, -5, 0, 0, 0, 0, 2, 0]) := by decide +kernel
example : (fibsParse fibsLine).map (fun f => (f.turn, f.yourDice, f.hisDice, f.doublingCube)) = some (1, (6, 2), (0, 0), 1) := by
  decide +kernel
example : (fibsParse fibsLine).map (fun f => (f.youMayDouble, f.heMayDouble, f.wasDoubled, f.yourColour, f.yourDirection)) =
    some (1, 1, 0, 1, -1) := by decide +kernel
example : (fibsParse fibsLine).map (·.position) = some ({} : Board).position := by decide +kernel
example : (fibsDecode {} t!"board:You:MonteCarlo:1:0:0:0:3:0:0:0:0:0:0:0:0:0:0:0:0:0:0:0:0:0:0:0:0:0:-1:-2:0:1:2:2:0:0:1:1:1:0:1:-1:0:25:12:12:0:0:3:1:0:0").map
      (fun r => (r.err, r.board.position)) =
    some (none, 3 :: List.replicate 24 0, 2 :: 1 :: List.replicate 23 0) := by decide +kernel

/-! `bearoff/gnubgdb_test.py`, `bearoff/trice_test.py` -/

example : onesideIndex (1 :: List.replicate 24 0) 1 1 = .ok 1 := by decide +kernel
example : onesideIndex ([0, 0, 1, 2, 5, 1] ++ List.replicate 19 0) 6 9 = .ok 4927 := by decide +kernel
example : onesideIndex ([2, 3, 0, 1, 0, 3] ++ List.replicate 19 0) 6 8 = .ok 505 := by decide +kernel

/-! `model/util_test.py` -/

example : (positionPton t!"1" YOU, positionPton t!"24" YOU, positionPton t!"your home" YOU, positionPton t!"your bar" YOU) =
    (.ok 0, .ok 23, .ok (-1), .ok 24) := by decide +kernel
example : (positionPton t!"1" HIM, positionPton t!"24" HIM, positionPton t!"his home" HIM, positionPton t!"his bar" HIM) =
    (.ok 23, .ok 0, .ok (-1), .ok 24) := by decide +kernel
example : (positionNtop 0 YOU, positionNtop 23 YOU, positionNtop (-1) YOU, positionNtop 24 YOU) =
    (.ok t!"1", .ok t!"24", .ok t!"your home", .ok t!"your bar") := by decide +kernel
example : (positionNtop 23 HIM, positionNtop 0 HIM, positionNtop (-1) HIM, positionNtop 24 HIM) =
    (.ok t!"1", .ok t!"24", .ok t!"his home", .ok t!"his bar") := by decide +kernel
example : (moveNtop 24, moveNtop 0, moveNtop (-1)) = (.ok t!"bar", .ok t!"1", .ok t!"off") := by decide +kernel
example : (movePton t!"bar", movePton t!"1", movePton t!"off") = (.ok 24, .ok 0, .ok (-1)) := by decide +kernel
example : (positionPton t!"100" YOU, positionPton t!"abc" YOU, positionNtop 0 CENTER, positionNtop 26 YOU) =
    (.error .valueError, .error .valueError, .error .valueError, .error .valueError) := by decide +kernel
example : (moveNtop 25, movePton t!"hoge", movePton t!"100", getOpp CENTER) =
    (.error .valueError, .error .valueError, .error .valueError, .error .valueError) := by decide +kernel

end Bglib.Check
