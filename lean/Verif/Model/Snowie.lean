import Verif.Model.Text
/-
Model of `bglib/record/snowietxt.py`: validating and chopping match records.

`LineParser` is not in the repository (package `tonic`).  It is assumed to find out which of the named
alternatives of `LineValidator._first` and `_last` (snowietxt.py:50-84) matches a line and to call the
method `handle_…` of that name if there is one; so a line comes with its kind.  There is no method for
lines that only tell the result.
-/
namespace Bglib.Snowie
open Bglib

/-- The kinds of lines; `moves` with the number in front. -/
inductive Kind where
  | empty
  | matchLength
  | gameHeader
  | playerHeader
  | moves (n : Nat)
  | result
  | bad
  deriving DecidableEq, Repr

structure Line where
  kind : Kind
  text : Text
  deriving DecidableEq, Repr

/-- `LineValidator.state`: `None` or the name of the last method. -/
inductive State where
  | start | empty | matchLength | gameHeader | playerHeader | moves
  deriving DecidableEq, Repr

/-- `ACCEPTABLES`, snowietxt.py:19-26 -/
def acceptables : State → List State
  | .start => [.matchLength]
  | .empty => [.gameHeader]
  | .matchLength => [.gameHeader]
  | .gameHeader => [.playerHeader]
  | .playerHeader => [.moves]
  | .moves => [.moves, .empty, .gameHeader]

/-- snowietxt.py:86-88 -/
structure LineValidator where
  state : State
  count : Option Nat
  deriving DecidableEq, Repr

def LineValidator.new : LineValidator := ⟨.start, none⟩

/-- `statevalidate`, snowietxt.py:28-46, up to the call of the method. -/
def LineValidator.enter (v : LineValidator) (next : State) : Py LineValidator :=
  if next ≠ .empty ∧ next ∉ acceptables v.state then .error .valueError
  else if v.state = .moves ∧ next = .moves then
    match v.count with
    | some n => .ok ⟨next, some (n + 1)⟩
    | none => .error .typeError
  else .ok ⟨next, some 1⟩

/-- `parse` with the methods snowietxt.py:90-121.  After an exception the validator is not used again. -/
def LineValidator.parse (v : LineValidator) : Kind → Py LineValidator
  | .empty => v.enter .empty
  | .matchLength => v.enter .matchLength
  | .gameHeader => v.enter .gameHeader
  | .playerHeader => v.enter .playerHeader
  | .moves n =>
    match v.enter .moves with
    | .ok v' => if v'.count = some n then .ok v' else .error .valueError
    | .error e => .error e
  | .result => .ok v
  | .bad => .error .valueError

/-- The lines of a text one after the other. -/
def LineValidator.run (v : LineValidator) : List Kind → Py LineValidator
  | [] => .ok v
  | k :: ks =>
    match v.parse k with
    | .ok v' => v'.run ks
    | .error e => .error e

/-- The loop of `Validator.validate`, snowietxt.py:141-146 with 133-136; `max = 0` is no limit. -/
def validateLoop (max : Nat) : LineValidator → Nat → List Line → Py Unit
  | _, _, [] => .ok ()
  | v, size, l :: ls =>
    match v.parse l.kind with
    | .error e => .error e
    | .ok v' =>
      if max ≠ 0 ∧ size + l.text.length ≥ max then .error .valueError
      else validateLoop max v' (size + l.text.length) ls

/-- `Validator(max).validate(f)`; the SHA sum of the lines, which it returns, is left out. -/
def validate (max : Nat) (ls : List Line) : Py Unit := validateLoop max .new 0 ls

/-- What a generator gives: the values and possibly an exception after them. -/
structure Yields where
  values : List Text
  raised : Option PyErr
  deriving DecidableEq, Repr

/-- `''.join([match_length, '\n'] + xs)`, snowietxt.py:165; joining the number 0 is a `TypeError`. -/
def chopJoin (ml : Option Text) (xs : List Text) : Py Text :=
  match ml with
  | some m => .ok (m ++ '\n' :: xs.flatten)
  | none => .error .typeError

/-- The generator goes on after a value. -/
def Yields.cons (y : Py Text) (r : Yields) : Yields :=
  match y with
  | .ok t => ⟨t :: r.values, r.raised⟩
  | .error e => ⟨[], some e⟩

/-- The loop of `chop`, snowietxt.py:154-168, with its local variables. -/
def chopLoop (v : LineValidator) (ml : Option Text) (xs : List Text) (first : Bool) : List Line → Yields
  | [] => .cons (chopJoin ml xs) ⟨[], none⟩
  | l :: ls =>
    match v.parse l.kind with
    | .error e => ⟨[], some e⟩
    | .ok v' =>
      if v'.state = .matchLength then chopLoop v' (some l.text) xs first ls
      else if v'.state = .empty then chopLoop v' ml xs first ls
      else if v'.state = .gameHeader then
        if first then chopLoop v' ml (xs ++ [l.text]) false ls
        else .cons (chopJoin ml xs) (chopLoop v' ml [l.text] first ls)
      else chopLoop v' ml (xs ++ [l.text]) first ls

/-- `chop`, snowietxt.py:148-168, for the lines of `txt.splitlines(True)`. -/
def chop (ls : List Line) : Yields := chopLoop .new none [] true ls

end Bglib.Snowie
