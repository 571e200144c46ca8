import Verif.Model.Pattern
import Verif.Model.Xgid
import Verif.Model.Image
/-
Model of the parser of style sheets in `bglib/image/css.py`.  Line numbers are left out.
-/
namespace Bglib.Img
open Bglib

/-- `re.search`: the first place where the pattern matches. -/
def searchFrom (r : Re) (start : Bool) : Text → Option Place
  | [] => (r.all ⟨start, [], []⟩).head?
  | c :: s =>
    match (r.all ⟨start, c :: s, []⟩).head? with
    | some q => some q
    | none => searchFrom r false s

/-- The groups of the match found. -/
def search (r : Re) (s : Text) : Option (List (Text × Text)) := (searchFrom r true s).map (·.groups)

/-- `m.group(name)` -/
def grp (g : List (Text × Text)) (name : Text) : Option Text := (g.find? fun x => x.1 = name).map (·.2)

def nameChars : List (Char × Char) := [('-', '-'), ('_', '_'), ('0', '9'), ('a', 'z'), ('A', 'Z')]

/-- css.py:182 -/
def ruleRe : Re := .all' [.bol, .star (.ch ' '), .group t!"pattern" (.star (.set ⟨true, [('{', '{')]⟩)),
  .star (.ch ' '), .ch '{', .group t!"block" (.star (.set ⟨true, [(']', ']')]⟩)), .ch '}']

/-- css.py:198-202 -/
def selectorRe : Re := .all' [.group t!"element" (.plus (.any [('_', '_'), ('a', 'z'), ('A', 'Z')])),
  .opt (.all' [.ch '[', .group t!"name" (.plus (.any nameChars)), .ch '=', .group t!"value" (.plus (.any nameChars)), .ch ']']),
  .opt (.all' [.lit t!":data(", .group t!"data" (.plus (.set ⟨true, [(')', ')')]⟩)), .ch ')'])]

/-- css.py:218 -/
def attributeRe : Re := .all' [.star (.ch ' '), .group t!"name" (.plus (.any nameChars)), .star (.ch ' '), .ch ':',
  .star (.ch ' '), .group t!"value" (.plus (.set ⟨true, [(' ', ' ')]⟩)), .star (.ch ' ')]

/-- `selector`, css.py:196-208: what is added to the pattern -/
def parseSelector (s : Text) : Option Selector :=
  (search selectorRe s).map fun g =>
    ⟨(grp g t!"element").getD [],
     (match grp g t!"name", grp g t!"value" with
      | some n, some v => some (n, v)
      | _, _ => none),
     grp g t!"data"⟩

/-- `attribute`, css.py:216-221: what is put into the dictionary -/
def parseAttribute (s : Text) : Option (Text × Text) :=
  (search attributeRe s).map fun g => ((grp g t!"name").getD [], (grp g t!"value").getD [])

/-- `dict.update` with one entry -/
def putText (n v : Text) : List (Text × Text) → List (Text × Text)
  | [] => [(n, v)]
  | (m, w) :: r => if m = n then (m, v) :: r else (m, w) :: putText n v r

/-- `pattern`, css.py:190-194 -/
def parsePattern (s : Text) : List Selector :=
  (splitChar ' ' s).filterMap fun t => if t = [] then none else parseSelector t

/-- `block`, css.py:210-214 -/
def parseBlock (s : Text) : List (Text × Text) :=
  ((splitChar ';' s).filterMap fun t => if t = [] then none else parseAttribute t).foldl
    (fun d x => putText x.1 x.2 d) []

/-- `rule`, css.py:179-188; `none` is None. -/
def parseRule (css s : Text) : Py (Option Rule) :=
  if s = [] then .ok none
  else match search ruleRe s with
    | none => .ok none
    | some g =>
      let p := (grp g t!"pattern").getD []
      let b := (grp g t!"block").getD []
      if p = [] then .error .assertion
      else if b = [] then .error .assertion
      else .ok (some ⟨css, parsePattern p, parseBlock b⟩)

/-- `load`, css.py:223-231, for the lines of the file -/
def loadCss (css : Text) : List Text → Py (List Rule)
  | [] => .ok []
  | l :: ls => do
    let r ← parseRule css l
    let rs ← loadCss css ls
    return match r with
      | some r => r :: rs
      | none => rs

end Bglib.Img
