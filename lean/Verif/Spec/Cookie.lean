import Verif.Model.Cookie
/-
The words used in the statements about message classification (C30, C53-C55).
-/
namespace Bglib.Spec
open Bglib

/-- What it means that an expression matches at the beginning of a text: reading the items one after the
other takes a piece of the text each. -/
inductive Reads : List Item → Text → Prop where
  | done (s : Text) : Reads [] s
  | eol (r : List Item) (s : Text) : s = [] ∨ s = ['\n'] → Reads r s → Reads (.eol :: r) s
  | one (c : CharSet) (x : Char) (r s) : c.mem x = true → Reads r s → Reads (.set c .one :: r) (x :: s)
  | opt (c : CharSet) (p : Text) (r s) : p.length ≤ 1 → (∀ x ∈ p, c.mem x = true) → Reads r s →
      Reads (.set c .opt :: r) (p ++ s)
  | star (c : CharSet) (p : Text) (r s) : (∀ x ∈ p, c.mem x = true) → Reads r s →
      Reads (.set c .star :: r) (p ++ s)
  | plus (c : CharSet) (p : Text) (r s) : p ≠ [] → (∀ x ∈ p, c.mem x = true) → Reads r s →
      Reads (.set c .plus :: r) (p ++ s)

/-- A possible iteration order of the class dictionaries. -/
def ValidOrder (order : Phase → List Text) : Prop :=
  ∀ ph, (order ph).Perm ((tableOf ph).map (·.1))

/-- Whether one of the patterns of a table under a name matches the message. -/
def matchesName (tbl : Table) (msg : Text) (name : Text) : Bool :=
  match tbl.lookup name with
  | some ps => ps.any fun p => reMatch p msg
  | none => false

/-- A monster that has seen any messages whatever. -/
inductive Reachable (order : Phase → List Text) : Monster → Prop where
  | new : Reachable order Monster.new
  | step (m : Monster) (msg : Text) : Reachable order m → Reachable order (m.makeCookie order msg).2

end Bglib.Spec
