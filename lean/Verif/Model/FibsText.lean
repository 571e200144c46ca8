import Verif.Model.Pattern
import Verif.Model.Text
/-
Model of the helpers for FIBS messages, `bglib/encoding/FIBS.py:147-202`.
-/
namespace Bglib

/-- `re.findall` for a pattern without groups. -/
def findall (r : Re) (s : Text) : List Text := (finditer [((), r)] s).map fun x => x.2.1

/-- FIBS.py:147 -/
def dieRe : Re := .any [('1', '6')]
/-- FIBS.py:179, 184 -/
def numberRe : Re := .plus (.any [('0', '9')])
/-- FIBS.py:152 -/
def nameRe : Re := .seq .bol (.plus (.any [('a', 'z'), ('A', 'Z'), ('_', '_'), ('<', '<'), ('>', '>')]))

/-- `int(s)` -/
def toInt (s : Text) : Py Int :=
  match pyInt s with
  | some n => .ok n
  | none => .error .valueError

/-- `get_dice`, FIBS.py:148-150; unpacking another number of values is a ValueError. -/
def getDice (got : Text) : Py (Int × Int) :=
  match findall dieRe got with
  | [a, b] => do return (← toInt a, ← toInt b)
  | _ => .error .valueError

/-- `get_name`, FIBS.py:153-157; `^` makes the search try the beginning only. -/
def getName (got : Text) : Option Text :=
  match nameRe.all ⟨true, got, []⟩ with
  | q :: _ => some (between ⟨true, got, []⟩ q)
  | [] => none

/-- `get_taker_name`, FIBS.py:160-167: it searches `name_expr`, which has no group `name`, so that
`m.start('name')` is an IndexError. -/
def getTakerName (got : Text) : Option Text :=
  match nameRe.all ⟨true, got, []⟩ with
  | q :: _ => match q.groups.lookup t!"name" with
    | some n => some n
    | none => none
  | [] => none

/-- `get_move`, FIBS.py:169-187: the module does not import `bglib`, and `bglib.model.constants` has no such
name to pass on, so that the first statement is a NameError. -/
def getMove (_got : Text) (_who : Int) : Py Unit := .error .nameError

/-- `get_score`, FIBS.py:190-192: `int` of a list. -/
def getScore (got : Text) : Py Int :=
  let _score := findall numberRe got
  .error .typeError

/-- `get_match_scores`, FIBS.py:195-197 -/
def getMatchScores (got : Text) : Py (Int × Int × Int) :=
  match findall numberRe got with
  | [y, h, l] => do return (← toInt y, ← toInt h, ← toInt l)
  | _ => .error .valueError

/-- `get_resign_score`, FIBS.py:199-201 -/
def getResignScore (got : Text) : Py Int :=
  match findall numberRe got with
  | [] => .error .indexError
  | n :: _ => toInt n

end Bglib
