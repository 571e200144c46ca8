import Verif.Model.Text
/-
`base64.standard_b64encode` / `standard_b64decode` of Python 2 (external code; the model follows
CPython 2.7 `Modules/binascii.c`, functions `binascii_b2a_base64`, `binascii_a2b_base64` and
`binascii_find_valid`).  Bytes are naturals below 256.
-/
namespace Bglib

/-- The base64 alphabet. -/
def b64Char (v : Nat) : Char :=
  if v < 26 then Char.ofNat (65 + v)
  else if v < 52 then Char.ofNat (97 + (v - 26))
  else if v < 62 then Char.ofNat (48 + (v - 52))
  else if v = 62 then '+' else '/'

/-- Inverse table `table_a2b_base64` without the entry for the pad character. -/
def b64Val (c : Char) : Option Nat :=
  if 'A' ≤ c ∧ c ≤ 'Z' then some (c.toNat - 65)
  else if 'a' ≤ c ∧ c ≤ 'z' then some (c.toNat - 97 + 26)
  else if '0' ≤ c ∧ c ≤ '9' then some (c.toNat - 48 + 52)
  else if c = '+' then some 62
  else if c = '/' then some 63
  else none

/-- `standard_b64encode`: groups of three bytes become four characters; `=` pads the last group. -/
def b64encode : List Nat → Text
  | [] => []
  | [a] => [b64Char (a / 4), b64Char (a % 4 * 16), '=', '=']
  | [a, b] => [b64Char (a / 4), b64Char (a % 4 * 16 + b / 16), b64Char (b % 16 * 4), '=']
  | a :: b :: c :: rest =>
    b64Char (a / 4) :: b64Char (a % 4 * 16 + b / 16) :: b64Char (b % 16 * 4 + c / 64) ::
      b64Char (c % 64) :: b64encode rest

/-- `s.rstrip('=')` -/
def rstripPad (s : Text) : Text := (s.reverse.dropWhile (· = '=')).reverse

/-- `binascii_find_valid`: the first character of the base64 alphabet or pad. -/
def findValid : Text → Option Char
  | [] => none
  | c :: cs => if (b64Val c).isSome ∨ c = '=' then some c else findValid cs

/-- Loop of `binascii_a2b_base64` with `quad_pos`, `leftbits`, `leftchar`; `none` is the error
"Incorrect padding".  Characters outside the alphabet are skipped. -/
def a2b (quad leftbits leftchar : Nat) : Text → Option (List Nat)
  | [] => if leftbits = 0 then some [] else none
  | c :: cs =>
    if c = '=' then
      if quad < 2 ∨ (quad = 2 ∧ findValid cs ≠ some '=') then a2b quad leftbits leftchar cs
      else some []
    else match b64Val c with
      | none => a2b quad leftbits leftchar cs
      | some v =>
        let lc := leftchar * 64 + v
        let lb := leftbits + 6
        if 8 ≤ lb then
          (a2b ((quad + 1) % 4) (lb - 8) (lc % 2 ^ (lb - 8)) cs).map ((lc / 2 ^ (lb - 8)) :: ·)
        else a2b ((quad + 1) % 4) lb lc cs

/-- `standard_b64decode`; `none`: `TypeError('Incorrect padding')`. -/
def b64decode (s : Text) : Option (List Nat) := a2b 0 0 0 s

/-- The loop of gnubgid.py:103-111 and 201-209, at most `fuel` rounds: decode, on "Incorrect padding"
append `=` and try again. -/
def padLoop : Nat → Text → Option (List Nat)
  | 0, _ => none
  | fuel + 1, s => match b64decode s with
    | some b => some b
    | none => padLoop fuel (s ++ ['='])

/-- gnubgid.py:101-111 (and 199-209).  `diverges` when three rounds do not suffice: then no number of
rounds does (`padLoop_none`). -/
def decodeText (s : Text) : Py (List Nat) :=
  if '=' ∈ s then .error .typeError
  else match padLoop 3 s with
    | some b => .ok b
    | none => .error .diverges

end Bglib
