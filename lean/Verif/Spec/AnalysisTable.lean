import Verif.Model.AnalysisTable
import Verif.Model.Xgid
/-
Numbers with a decimal point, written independently of the formatting.
-/
namespace Bglib.Spec
open Doc

/-- The number that digits stand for. -/
def numeral : Nat → Text → Option Nat
  | acc, [] => some acc
  | acc, c :: cs => if '0' ≤ c ∧ c ≤ '9' then numeral (10 * acc + (c.toNat - 48)) cs else none

/-- Reads digits, a point and digits: the number without the point, and the digits after it. -/
def readPoint (t : Text) : Option (Nat × Nat) :=
  match splitChar '.' t with
  | [a, b] => if a = [] then none else (numeral 0 (a ++ b)).map fun n => (n, b.length)
  | _ => none

/-- The same with a sign before; no sign is a plus. -/
def readSigned (t : Text) : Option (Bool × Nat × Nat) :=
  match t with
  | '-' :: u => (readPoint u).map fun x => (true, x)
  | '+' :: u => (readPoint u).map fun x => (false, x)
  | u => (readPoint u).map fun x => (false, x)

/-- `n / scale` is within half a unit of the last place of `f`; when it is exactly half a unit away, `n` is even. -/
def HalfUnit (f : Flt) (n scale : Nat) : Prop :=
  2 * (f.num * scale) ≤ 2 * (n * f.den) + f.den ∧ 2 * (n * f.den) ≤ 2 * (f.num * scale) + f.den ∧
    (2 * (f.num * scale) = 2 * (n * f.den) + f.den ∨ 2 * (n * f.den) = 2 * (f.num * scale) + f.den → n % 2 = 0)

end Bglib.Spec
