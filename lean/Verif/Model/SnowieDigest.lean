import Verif.Model.Snowie
/-
Model of the class `Validator` of `bglib/record/snowietxt.py` with the digest it makes.

The object `sha.new()` is the text it was updated with: the documentation of the module says that repeated calls of
`update` are equivalent to one call with the concatenation of all the arguments, and that `digest` is the digest of that.
-/
namespace Bglib.Snowie
open Bglib

/-- snowietxt.py:124-131; `None` for `max_size` is 0. -/
structure Validator where
  h : Text
  linev : LineValidator
  size : Nat
  max : Nat
  deriving DecidableEq, Repr

def Validator.new (maxSize : Option Nat) : Validator := ⟨[], .new, 0, maxSize.getD 0⟩

/-- `feed`, snowietxt.py:133-136.  After an exception the validator is not used again. -/
def Validator.feed (v : Validator) (line : Line) : Py Validator :=
  match v.linev.parse line.kind with
  | .error e => .error e
  | .ok l => .ok { v with h := v.h ++ line.text, linev := l, size := v.size + line.text.length }

/-- `validate`, snowietxt.py:141-146: the validator afterwards, whose `h` is what is returned (`done`, 138-139). -/
def Validator.validate (v : Validator) : List Line → Py Validator
  | [] => .ok v
  | l :: ls =>
    match v.feed l with
    | .error e => .error e
    | .ok v' => if v'.max ≠ 0 ∧ v'.size ≥ v'.max then .error .valueError else v'.validate ls

end Bglib.Snowie
