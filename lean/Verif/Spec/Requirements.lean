import Verif.Spec.Setup
/-
Reading the requirements of an installation script as setuptools does (C124): `parse_requirements` of `pkg_resources`, of
distribute 0.6.19, the version that freeze.txt names.  Extras in square brackets and lines continued with a backslash are left
out: lines with these are not read here.
-/
namespace Bglib.Spec.Setup
open Bglib Bglib.Setup

/-- `\w|[-.]` -/
def namePart (c : Char) : Bool := c.isAlphanum || c = '_' || c = '-' || c = '.'

/-- A name and what is asked of its version. -/
structure Requirement where
  name : Text
  versions : List (Text × Text)
  deriving DecidableEq, Repr

def skip (t : Text) : Text := t.dropWhile isSpace

/-- `<=?|>=?|==|!=`, and what follows. -/
def operator : Text → Option (Text × Text)
  | '<' :: '=' :: r => some (t!"<=", r)
  | '<' :: r => some (t!"<", r)
  | '>' :: '=' :: r => some (t!">=", r)
  | '>' :: r => some (t!">", r)
  | '=' :: '=' :: r => some (t!"==", r)
  | '!' :: '=' :: r => some (t!"!=", r)
  | _ => none

/-- `VERSION`, and what follows. -/
def versionSpec (t : Text) : Option ((Text × Text) × Text) :=
  match operator (skip t) with
  | none => none
  | some (o, r) =>
    if (skip r).takeWhile namePart = [] then none
    else some ((o, (skip r).takeWhile namePart), (skip r).dropWhile namePart)

/-- `LINE_END` -/
def lineEnd (t : Text) : Bool := (skip t).head? = none || (skip t).head? = some '#'

/-- `scan_list` with `VERSION` and `LINE_END`, in a text of at most `n` characters. -/
def versionSpecs : Nat → Text → Option (List (Text × Text))
  | 0, t => if lineEnd t then some [] else none
  | n + 1, t =>
    if lineEnd t then some []
    else match versionSpec t with
      | none => none
      | some (v, r) =>
        if (skip r).head? = some ',' then (versionSpecs n (skip r).tail).map (v :: ·)
        else if lineEnd r then some [v] else none

/-- A line. -/
def requirement (t : Text) : Option Requirement :=
  if (skip t).takeWhile namePart = [] then none
  else (versionSpecs t.length ((skip t).dropWhile namePart)).map fun vs => ⟨(skip t).takeWhile namePart, vs⟩

/-- `splitlines`; `acc` is the line being read, backwards.  (A line feed after a carriage return gives an empty line here.) -/
def cut (acc : Text) : Text → List Text
  | [] => [acc.reverse]
  | c :: r => if c = '\n' ∨ c = '\r' then acc.reverse :: cut [] r else cut (c :: acc) r

/-- `yield_lines`: without empty lines and comments. -/
def cleanLines (t : Text) : List Text := ((cut [] t).map Doc.strip).filter fun l => l.head? != none && l.head? != some '#'

/-- The strings in a list of strings. -/
def texts (ws : List Word) : List Text := ws.filterMap fun w => match w with
  | .str t => some t
  | _ => none

/-- What an installation script requires; `none` if setuptools refuses it. -/
def required (script : Text) : Option (List Requirement) := do
  let args ← arguments script
  let a ← args.find? fun a => a.1 = t!"install_requires"
  ((texts a.2).flatMap cleanLines).mapM requirement

/-- A line of `pip freeze`: a name and a version. -/
def pinned (p : Text × Text) : Text := p.1 ++ t!"==" ++ p.2 ++ t!"\n"

/-- A name and a version are made of letters, digits, `_`, `-` and `.`. -/
def IsPin (p : Text × Text) : Prop := p.1 ≠ [] ∧ p.2 ≠ [] ∧ (∀ c ∈ p.1, namePart c = true) ∧ ∀ c ∈ p.2, namePart c = true

/-- The signs that are used in requirements. -/
def usedIn (c : Char) : Bool := namePart c || isSpace c || c = '<' || c = '>' || c = '=' || c = '!' || c = ','

end Bglib.Spec.Setup
