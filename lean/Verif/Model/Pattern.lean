import Verif.Model.Regex
/-
The part of Python's `re` that the wiki formatter uses, with groups and alternatives.  A pattern gives
all the ways to match in the order in which the backtracking engine tries them; the first one counts.
-/
namespace Bglib

/-- Regular expressions, greedy as in `re` without `?` after a repetition. -/
inductive Re where
  | eps
  /-- one character of a set -/
  | set (s : CharSet)
  /-- `^`, without MULTILINE: the beginning of the text -/
  | bol
  /-- `$`: the end, or before a newline at the end -/
  | eol
  | seq (a b : Re)
  | alt (a b : Re)
  /-- at least `min` times, at most `max` times -/
  | rep (a : Re) (min : Nat) (max : Option Nat)
  | group (name : Text) (a : Re)
  deriving DecidableEq, Repr

/-- A place in the text while matching: whether it is the beginning, what follows, and the groups closed
so far, last one first. -/
structure Place where
  start : Bool
  rest : Text
  groups : List (Text × Text)
  deriving DecidableEq, Repr

/-- The text between two places. -/
def between (p q : Place) : Text := p.rest.take (p.rest.length - q.rest.length)

/-- Repetition: `n` more times at most, `min` of them needed; longest first.  A repetition that reads
nothing is not tried again. -/
def repAll (f : Place → List Place) : Nat → Nat → Place → List Place
  | 0, min, p => if min = 0 then [p] else []
  | n + 1, min, p =>
    (((f p).filter fun q => q.rest.length < p.rest.length).flatMap (repAll f n (min - 1))) ++
      if min = 0 then [p] else []

/-- The places where a match from `p` can end. -/
def Re.all : Re → Place → List Place
  | .eps, p => [p]
  | .set s, p => match p.rest with
    | [] => []
    | c :: r => if s.mem c then [⟨false, r, p.groups⟩] else []
  | .bol, p => if p.start then [p] else []
  | .eol, p => if p.rest = [] ∨ p.rest = ['\n'] then [p] else []
  | .seq a b, p => (a.all p).flatMap b.all
  | .alt a b, p => a.all p ++ b.all p
  | .rep a min max, p => repAll a.all (max.getD p.rest.length) min p
  | .group name a, p => (a.all p).map fun q => { q with groups := (name, between p q) :: q.groups }

/-! Shorthands -/

def Re.ch (c : Char) : Re := .set ⟨false, [(c, c)]⟩
def Re.any (l : List (Char × Char)) : Re := .set ⟨false, l⟩
def Re.lit : Text → Re
  | [] => .eps
  | [c] => .ch c
  | c :: r => .seq (.ch c) (.lit r)
def Re.all' : List Re → Re
  | [] => .eps
  | [r] => r
  | r :: rs => .seq r (.all' rs)
def Re.alts : List Re → Re
  | [] => .eps
  | [r] => r
  | r :: rs => .alt r (.alts rs)
def Re.opt (r : Re) : Re := .rep r 0 (some 1)
def Re.plus (r : Re) : Re := .rep r 1 none
def Re.star (r : Re) : Re := .rep r 0 none

/-- `\w`, `\d` and `\s` for us-ascii text. -/
def wordChars : List (Char × Char) := [('a', 'z'), ('A', 'Z'), ('0', '9'), ('_', '_')]
def digits : List (Char × Char) := [('0', '9')]
def spaces : List (Char × Char) := [(' ', ' '), ('\t', '\r')]

/-- The first of some patterns that matches at a place: its name, the text read, the groups, and the place
behind. -/
def firstPattern {α : Type} (pats : List (α × Re)) (p : Place) : Option (α × Text × List (Text × Text) × Place) :=
  match pats with
  | [] => none
  | (n, r) :: rest =>
    match r.all p with
    | q :: _ => some (n, between p q, q.groups, q)
    | [] => firstPattern rest p

/-- `finditer` with the alternatives: the matches one after the other; where nothing (or only nothing)
is read the search goes on at the next character. -/
def findAll {α : Type} (pats : List (α × Re)) : Nat → Place → List (α × Text × List (Text × Text))
  | 0, _ => []
  | fuel + 1, p =>
    match firstPattern pats p with
    | some (n, m, g, q) =>
      if q.rest.length < p.rest.length then (n, m, g) :: findAll pats fuel ⟨false, q.rest, []⟩
      else (n, m, g) :: match p.rest with
        | [] => []
        | _ :: r => findAll pats fuel ⟨false, r, []⟩
    | none => match p.rest with
      | [] => []
      | _ :: r => findAll pats fuel ⟨false, r, []⟩

/-- `regexp.finditer(line)` -/
def finditer {α : Type} (pats : List (α × Re)) (line : Text) : List (α × Text × List (Text × Text)) :=
  findAll pats (line.length + 1) ⟨true, line, []⟩

end Bglib
