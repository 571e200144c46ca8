import Verif.Model.Wiki
/-
Model of the address of a picture, `bglib/doc/macro.py`: the arguments of the macro `Position` and the
query made of them.
-/
namespace Bglib.Doc

/-- `[a-zA-Z0-9/+]`, macro.py:183 -/
def idChars : List (Char × Char) := [('a', 'z'), ('A', 'Z'), ('0', '9'), ('/', '/'), ('+', '+')]

/-- `[a-zA-Z]`, macro.py:184 -/
def letterChars : List (Char × Char) := [('a', 'z'), ('A', 'Z')]

/-- One of the optional parts, macro.py:184-187: a comma, blanks, the words, and the value. -/
def optionRe (name words : Text) (chars : List (Char × Char)) : Re :=
  .opt (.all' [.ch ',', .star (.ch ' '), .lit words, .group name (.plus (.any chars))])

/-- `_arg_pattern`, macro.py:182-188.  Only `css` has an equals sign. -/
def argRe : Re := .all' [
  .group t!"gnubgid" (.all' [.rep (.any idChars) 14 (some 14), .ch ':', .rep (.any idChars) 12 (some 12)]),
  optionRe t!"css" t!"css=" letterChars,
  optionRe t!"format" t!"format" letterChars,
  optionRe t!"width" t!"width" digits,
  optionRe t!"height" t!"height" digits]

/-- The dictionary `_parse_position` returns.  Simplification: the numbers 400 and 300 are kept as text,
as `str` writes them into the address. -/
structure PicArgs where
  gnubgid : Text
  css : Text
  format : Text
  width : Text
  height : Text
deriving DecidableEq, Repr

/-- `if not d[key]: d[key] = default`, macro.py:197-204 -/
def orElse (v : Option Text) (default : Text) : Text := match v with
  | none => default
  | some [] => default
  | some s => s

/-- `_parse_position`, macro.py:190-205 -/
def parseArgs (s : Text) : Option PicArgs :=
  match argRe.all ⟨true, s, []⟩ with
  | [] => none
  | q :: _ =>
    match groupOf q.groups t!"gnubgid" with
    | none => none
    | some [] => none
    | some id => some ⟨id, orElse (groupOf q.groups t!"css") t!"minimal", orElse (groupOf q.groups t!"format") t!"png",
        orElse (groupOf q.groups t!"width") t!"400", orElse (groupOf q.groups t!"height") t!"300"⟩

/-- The items of the dictionary.  Their order in Python is arbitrary: statements are about any
permutation. -/
def PicArgs.items (a : PicArgs) : List (Text × Text) :=
  [(t!"gnubgid", a.gnubgid), (t!"css", a.css), (t!"format", a.format), (t!"width", a.width), (t!"height", a.height)]

/-- A hexadecimal digit as `%02X` writes it. -/
def hexDigit (n : Nat) : Char := if n < 10 then Char.ofNat (48 + n) else Char.ofNat (55 + n)

/-- `urllib.quote_plus` of one character (external: CPython 2.7 `urllib.py`).  Characters are below 256. -/
def quoteChar (c : Char) : Text :=
  if CharSet.mem ⟨false, [('a', 'z'), ('A', 'Z'), ('0', '9'), ('_', '_'), ('.', '.'), ('-', '-')]⟩ c then [c]
  else if c = ' ' then ['+']
  else ['%', hexDigit (c.toNat / 16), hexDigit (c.toNat % 16)]

/-- `urllib.quote_plus` -/
def quotePlus (s : Text) : Text := s.flatMap quoteChar

/-- `'&'.join` of the pairs -/
def joinAmp : List Text → Text
  | [] => []
  | [x] => x
  | x :: xs => x ++ '&' :: joinAmp xs

/-- `urllib.urlencode(d, True)` for text values, in the order of `items`. -/
def urlencode (items : List (Text × Text)) : Text :=
  joinAmp (items.map fun x => quotePlus x.1 ++ '=' :: quotePlus x.2)

/-- The attribute `src`, macro.py:211 -/
def pictureSrc (items : List (Text × Text)) : Text := t!"/image?" ++ urlencode items

end Bglib.Doc
