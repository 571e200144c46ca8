import Verif.Model.BearoffTests
import Verif.Spec.TestWriter
/-
Tables of numbers of bearoff positions and the tests they are made into (C100): how a table is written, and how the file
with the tests is read.
-/
namespace Bglib.Spec.BearoffTests
open Bglib Bglib.BearoffTests

/-! ### Tables -/

/-- Numbers with commas between them. -/
def commas : List Nat → Text
  | [] => []
  | [x] => decimal x
  | x :: y :: xs => decimal x ++ ',' :: commas (y :: xs)

/-- A row: the number of a pair of positions, and how many chequers each side has on its points, from the first. -/
abbrev Row := Nat × List Nat × List Nat

/-- The line of a row. -/
def line (r : Row) : Text := decimal r.1 ++ ' ' :: (commas r.2.1 ++ ' ' :: commas r.2.2)

/-- The text of a table. -/
def table (rs : List Row) : Text := rs.flatMap fun r => line r ++ ['\n']

/-- What may be before, between and behind the parts of a line: blanks and tabs, at least one between two parts. -/
structure Gaps where
  before : Text
  first : Text
  second : Text
  behind : Text

def Gaps.Fit (g : Gaps) : Prop :=
  (∀ c ∈ g.before ++ g.first ++ g.second ++ g.behind, c = ' ' ∨ c = '\t') ∧ g.first ≠ [] ∧ g.second ≠ []

/-- The line of a row with these gaps. -/
def spacedLine (r : Row × Gaps) : Text :=
  r.2.before ++ decimal r.1.1 ++ r.2.first ++ commas r.1.2.1 ++ r.2.second ++ commas r.1.2.2 ++ r.2.behind

/-- The text of a table with gaps of any width. -/
def spacedTable (rs : List (Row × Gaps)) : Text := rs.flatMap fun r => spacedLine r ++ ['\n']

/-- All six points of a side. -/
def sixPoints (xs : List Nat) : List Nat := xs ++ List.replicate (6 - xs.length) 0

/-- A row with all six points. -/
def complete (r : Row) : Row := (r.1, sixPoints r.2.1, sixPoints r.2.2)

/-- As Python has it. -/
def toCase (r : Row) : Case := (r.1, r.2.1.map Int.ofNat, r.2.2.map Int.ofNat)

/-- Six points on both sides, with at most nine chequers each. -/
def Small (r : Row) : Prop := r.2.1.length = 6 ∧ r.2.2.length = 6 ∧ (∀ x ∈ r.2.1, x ≤ 9) ∧ ∀ x ∈ r.2.2, x ≤ 9

/-- The last of the cases with its number is the case itself. -/
def LastOf (cs : List Case) (c : Case) : Prop := ∃ before after, cs = before ++ c :: after ∧ ∀ d ∈ after, d.1 ≠ c.1

/-! ### Files with tests -/

/-- The numbers in a text; `n` is the one being read. -/
def numbersFrom (n : Option Nat) : Text → List Nat
  | [] => n.toList
  | c :: r =>
    match digitVal c with
    | some v => numbersFrom (some (n.getD 0 * 10 + v)) r
    | none => n.toList ++ numbersFrom none r

def numbersIn (t : Text) : List Nat := numbersFrom none t

/-- A test: its name and what it asks, that a pair of positions has a number. -/
abbrev Asked := Text × Row

/-- The tests in the lines of a file: a method, the pair it asks for, and the number it expects. -/
def collect (name : Text) (us them : List Nat) : List Text → List Asked
  | [] => []
  | l :: ls =>
    match Spec.between t!"  def " t!"(self):" l with
    | some n => collect n us them ls
    | none =>
      match Spec.between t!"         (" t!") ," l with
      | some p => collect name (numbersIn (p.takeWhile (· ≠ ')'))) (numbersIn (p.dropWhile (· ≠ ')'))) ls
      | none =>
        match Spec.between t!"    " t!" )" l with
        | some n => (numbersIn n).map (fun k => (name, k, us, them)) ++ collect name us them ls
        | none => collect name us them ls

/-- The tests of a file. -/
def asked (file : Text) : List Asked := collect [] [] [] (splitChar '\n' file)

/-- The tests that are run: of methods of the same name only the last one is there. -/
def run : List Asked → List Asked
  | [] => []
  | a :: as => if as.any (fun b => b.1 = a.1) then run as else a :: run as

end Bglib.Spec.BearoffTests
