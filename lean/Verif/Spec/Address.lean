import Verif.Model.Address
import Verif.Model.Xgid
/-
The words used in the statements about the addresses of pictures (C71).
-/
namespace Bglib.Spec
open Bglib Bglib.Doc

def IdChar (c : Char) : Bool :=
  ('a' ≤ c && c ≤ 'z') || ('A' ≤ c && c ≤ 'Z') || ('0' ≤ c && c ≤ '9') || c == '/' || c == '+'
def AsciiLetter (c : Char) : Bool := ('a' ≤ c && c ≤ 'z') || ('A' ≤ c && c ≤ 'Z')
def AsciiDigit (c : Char) : Bool := '0' ≤ c && c ≤ '9'

/-- A GNUBG ID: fourteen and twelve characters with a colon between them. -/
def IsId (t : Text) : Prop :=
  ∃ p m : Text, t = p ++ ':' :: m ∧ p.length = 14 ∧ m.length = 12 ∧ p.all IdChar ∧ m.all IdChar

/-- An option at the beginning of `s`: a comma, blanks, `words`, and a value; the value and what
follows. -/
def readOption (words : Text) (ok : Char → Bool) (s : Text) : Option (Text × Text) :=
  match s with
  | ',' :: r =>
    let r := r.dropWhile (· = ' ')
    if words <+: r then
      let v := (r.drop words.length).takeWhile ok
      if v = [] then none else some (v, (r.drop words.length).dropWhile ok)
    else none
  | _ => none

/-- The value of an option with its default, and what follows. -/
def optionOr (words : Text) (ok : Char → Bool) (default : Text) (s : Text) : Text × Text :=
  (readOption words ok s).getD (default, s)

/-- What is read from the text behind the ID: css, format, width and height. -/
def readOptions (s : Text) : Text × Text × Text × Text :=
  let c := optionOr t!"css=" AsciiLetter t!"minimal" s
  let f := optionOr t!"format" AsciiLetter t!"png" c.2
  let w := optionOr t!"width" AsciiDigit t!"400" f.2
  let h := optionOr t!"height" AsciiDigit t!"300" w.2
  (c.1, f.1, w.1, h.1)

/-- An option as the macro understands it: a comma, `n` blanks, the words, and the value. -/
def writeOption (words : Text) (n : Nat) : Option Text → Text
  | none => []
  | some v => ',' :: List.replicate n ' ' ++ words ++ v

/-- A value of an option, if there is one: not empty, of the characters allowed. -/
def GoodValue (ok : Char → Bool) (v : Option Text) : Prop := ∀ t, v = some t → t ≠ [] ∧ t.all ok

/-- The value of a hexadecimal digit. -/
def hexVal (c : Char) : Nat :=
  if '0' ≤ c ∧ c ≤ '9' then c.toNat - 48 else if 'A' ≤ c ∧ c ≤ 'F' then c.toNat - 55 else 0

/-- How a server reads a name or value of a query. -/
def unquote : Text → Text
  | '%' :: a :: b :: r => Char.ofNat (hexVal a * 16 + hexVal b) :: unquote r
  | '+' :: r => ' ' :: unquote r
  | c :: r => c :: unquote r
  | [] => []

/-- How a server reads a query: pairs divided by `&`, names and values by `=`. -/
def readQuery (s : Text) : List (Text × Text) :=
  (splitChar '&' s).map fun f => (unquote (f.takeWhile (· ≠ '=')), unquote ((f.dropWhile (· ≠ '=')).drop 1))

/-- Text of single bytes. -/
def Bytes (t : Text) : Prop := ∀ c ∈ t, c.toNat < 256

end Bglib.Spec
