import Verif.Model.GnubgId
/-
Model of `bglib/encoding/xgid.py`.
-/
namespace Bglib

/-- Python's `s.split(c)` for a one-character separator. -/
def splitChar (sep : Char) : Text → List Text
  | [] => [[]]
  | c :: cs =>
    if c = sep then [] :: splitChar sep cs
    else match splitChar sep cs with
      | [] => [[c]]
      | f :: fs => (c :: f) :: fs

/-- `enumerate` lookup `dict([(v, i) ...]).get(c, 0)`, xgid.py:16-19, 36-37: the index of the character
in the table, 0 when absent. -/
def convGet (table : Text) (c : Char) : Int :=
  match table.findIdx? (· = c) with
  | some i => i
  | none => 0

/-- xgid.py:16 -/
def chequerHim : Text := ['-','a','b','c','d','e','f','g','h','i','j','k','l','m','n','o']
/-- xgid.py:17 -/
def chequerYou : Text := ['-','A','B','C','D','E','F','G','H','I','J','K','L','M','N','O']

/-- xgid.py:22-37, the pair (him, you) in the names of the source. -/
def xgPosition (s : Text) : Py (List Int × List Int) :=
  if s.length ≠ 26 then .error .decodeError
  else
    let you := (s.take 26).drop 1
    let him := (s.take 25).reverse
    .ok (him.map (convGet chequerHim), you.map (convGet chequerYou))

/-- xgid.py:134-148 from the match length on; `cj` is the Crawford/Jacoby flag. -/
def xgFinish (b : Board) (cj ml : Int) : DecodeResult :=
  let done (b : Board) : DecodeResult :=
    ⟨{ b with gameState := ON_GOING, onInnerAction := b.onAction }, none⟩
  if ml = 0 then done { b with crawford := false, matchLength := ml }
  else if ml > 0 then done { b with crawford := decide (cj ≠ 0), matchLength := ml }
  else ⟨b, some .inconsistentData⟩

/-- xgid.py:107-148: dice, score, flags.  The error message of a bad score has one `%s` for two values,
so that building it raises `TypeError` (xgid.py:118). -/
def xgTail (b : Board) (rolled yourScore hisScore cj ml : Text) : DecodeResult :=
  match rolled with
  | [r0, r1] =>
    match pyInt [r0], pyInt [r1] with
    | some d0, some d1 =>
      let b := { b with rolled := (d0, d1) }
      match pyInt hisScore, pyInt yourScore with
      | some h, some y =>
        let b := { b with score := (h, y) }
        match pyInt cj with
        | none => ⟨b, some .decodeError⟩
        | some cj =>
          if cj ≠ 0 ∧ cj ≠ 1 then ⟨b, some .inconsistentData⟩
          else match pyInt ml with
            | none => ⟨b, some .decodeError⟩
            | some ml => xgFinish b cj ml
      | _, _ => ⟨b, some .typeError⟩
    | _, _ => ⟨b, some .decodeError⟩
  | _ => ⟨b, some .inconsistentData⟩

/-- xgid.py:96-105: turn. -/
def xgTurn (b : Board) (onAction rolled yourScore hisScore cj ml : Text) : DecodeResult :=
  match pyInt onAction with
  | none => ⟨b, some .decodeError⟩
  | some t =>
    if t = -1 then xgTail { b with onAction := YOU } rolled yourScore hisScore cj ml
    else if t = 1 then xgTail { b with onAction := HIM } rolled yourScore hisScore cj ml
    else ⟨b, some .inconsistentData⟩

/-- xgid.py:40-148.  `cube_in_logarithm` is a natural in `Board`: a negative number in the text becomes 0
in the model (the code would store the negative number). -/
def xgDecode (b : Board) (s : Text) : DecodeResult :=
  if s = [] then ⟨b, some .decodeError⟩
  else match splitChar ':' s with
    | [position, cube, owner, onAction, rolled, yourScore, hisScore, cj, ml, _] =>
      match xgPosition position with
      | .error e => ⟨b, some e⟩
      | .ok p =>
        let b := { b with position := p }
        match pyInt cube with
        | none => ⟨b, some .decodeError⟩
        | some c =>
          let b := { b with cube := c.toNat }
          match pyInt owner with
          | none => ⟨b, some .decodeError⟩
          | some o =>
            if o = -1 then xgTurn { b with cubeOwner := YOU } onAction rolled yourScore hisScore cj ml
            else if o = 1 then xgTurn { b with cubeOwner := HIM } onAction rolled yourScore hisScore cj ml
            else if o = 0 then
              xgTurn { b with cubeOwner := CENTER } onAction rolled yourScore hisScore cj ml
            else ⟨b, some .inconsistentData⟩
    | _ => ⟨b, some .decodeError⟩

end Bglib
