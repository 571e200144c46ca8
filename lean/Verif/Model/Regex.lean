import Verif.Model.Text
/-
The regular expressions of the kind bglib uses with Python's `re.match`: a sequence of characters,
escaped characters, classes in brackets and dots, each possibly followed by `?`, `*` or `+`, with `^`
allowed in front and `$` at the end.  Groups and alternatives are not covered (`none`).
-/
namespace Bglib

/-- `t!"abc"` is the list of the characters of the literal. -/
syntax:max "t!" str : term
open Lean in
macro_rules
  | `(t! $s:str) => do
    let cs := s.getString.toList.map fun c => Syntax.mkCharLit c
    `(([$(cs.toArray),*] : Text))

/-- A set of characters: the given ranges or everything else. -/
structure CharSet where
  neg : Bool
  ranges : List (Char × Char)
  deriving DecidableEq, Repr

def CharSet.mem (s : CharSet) (c : Char) : Bool := (s.ranges.any fun r => r.1 ≤ c && c ≤ r.2) != s.neg

inductive Rep where
  | one | opt | star | plus
  deriving DecidableEq, Repr

inductive Item where
  | set (s : CharSet) (r : Rep)
  | eol
  deriving DecidableEq, Repr

/-- Zero or more characters of the set, then `k`. -/
def starLoop (c : CharSet) (k : Text → Bool) : Text → Bool
  | [] => k []
  | x :: s => k (x :: s) || (c.mem x && starLoop c k s)

/-- Whether the items match at the beginning of the text; with backtracking this is whether some way of
reading them exists.  `$` matches at the end and before a final newline. -/
def matchItems : List Item → Text → Bool
  | [], _ => true
  | .eol :: r, s => (s = [] || s = ['\n']) && matchItems r s
  | .set c .one :: r, s => match s with
    | [] => false
    | x :: s' => c.mem x && matchItems r s'
  | .set c .opt :: r, s => matchItems r s || match s with
    | [] => false
    | x :: s' => c.mem x && matchItems r s'
  | .set c .star :: r, s => starLoop c (matchItems r) s
  | .set c .plus :: r, s => match s with
    | [] => false
    | x :: s' => c.mem x && starLoop c (matchItems r) s'

/-- The inside of a bracketed class up to `]`; the rest after it. -/
def parseClass : Nat → Text → Option (List (Char × Char) × Text)
  | 0, _ => none
  | _ + 1, [] => none
  | _ + 1, ']' :: r => some ([], r)
  | fuel + 1, '\\' :: c :: r => (parseClass fuel r).map fun p => ((c, c) :: p.1, p.2)
  | fuel + 1, a :: '-' :: b :: r =>
    if b = ']' then (parseClass fuel ('-' :: b :: r)).map fun p => ((a, a) :: p.1, p.2)
    else (parseClass fuel r).map fun p => ((a, b) :: p.1, p.2)
  | fuel + 1, a :: r => (parseClass fuel r).map fun p => ((a, a) :: p.1, p.2)

/-- The repetition sign after an item. -/
def parseRep : Text → Rep × Text
  | '?' :: r => (.opt, r)
  | '*' :: r => (.star, r)
  | '+' :: r => (.plus, r)
  | r => (.one, r)

def parseItems : Nat → Text → Option (List Item)
  | 0, _ => none
  | _ + 1, [] => some []
  | _ + 1, ['$'] => some [.eol]
  | fuel + 1, c :: r => do
    let (set, r) ←
      if c = '\\' then
        match r with
        | e :: r => some (CharSet.mk false [(e, e)], r)
        | [] => none
      else if c = '[' then
        match r with
        | '^' :: r => (parseClass (r.length + 1) r).map fun p => (CharSet.mk true p.1, p.2)
        | r => (parseClass (r.length + 1) r).map fun p => (CharSet.mk false p.1, p.2)
      else if c = '.' then some (CharSet.mk true [('\n', '\n')], r)
      else if c ∈ ['(', ')', '|', '{', '}', '?', '*', '+', '^', '$'] then none
      else some (CharSet.mk false [(c, c)], r)
    let (rep, r) := parseRep r
    let rest ← parseItems fuel r
    return .set set rep :: rest

/-- `re.compile(pattern)` as used with `match`, for which a leading `^` makes no difference. -/
def compileRe (p : Text) : Option (List Item) :=
  match p with
  | '^' :: r => parseItems (r.length + 1) r
  | r => parseItems (r.length + 1) r

/-- Whether the pattern matches at the beginning of the text. -/
def reMatch (p s : Text) : Bool :=
  match compileRe p with
  | some is => matchItems is s
  | none => false

end Bglib
