import Verif.Model.Text
import Verif.Model.Xgid
import Verif.Model.TestWriter
import Verif.Model.Wiki
/-
Model of `bglib/encoding/bearoff/t2k.py`, the program that writes the tests of the numbering of trice.py.
-/
namespace Bglib.BearoffTests
open Bglib

/-- `str.split()`: the parts between blanks; `acc` is the part being read, backwards. -/
def splitBlanks (acc : Text) : Text → List Text
  | [] => if acc = [] then [] else [acc.reverse]
  | c :: r =>
    if isSpace c then (if acc = [] then splitBlanks [] r else acc.reverse :: splitBlanks [] r)
    else splitBlanks (c :: acc) r

/-- `[int(n) for n in …]`: a `ValueError` for what is no number. -/
def ints : List Text → Py (List Int)
  | [] => .ok []
  | t :: ts =>
    match pyInt t with
    | none => .error .valueError
    | some n => do
      let ns ← ints ts
      return n :: ns

/-- `s2t`, t2k.py:57-59: numbers between commas, and zeros up to six of them. -/
def s2t (s : Text) : Py (List Int) := do
  let xs ← ints (splitChar ',' s)
  return xs ++ List.replicate (6 - xs.length) 0

/-- A case: the number and the two sides. -/
abbrev Case := Int × List Int × List Int

/-- The loop of `dat2case` over the lines, t2k.py:63-65.  The names on the left of line 64 need exactly three parts. -/
def casesOf : List Text → Py (List Case)
  | [] => .ok []
  | line :: ls =>
    match splitBlanks [] line with
    | [n, us, them] =>
      match pyInt n with
      | none => .error .valueError
      | some n => do
        let us ← s2t us
        let them ← s2t them
        let r ← casesOf ls
        return (n, us, them) :: r
    | _ => .error .valueError

/-- `dat2case`, t2k.py:61-66.  `splitlines` as in C40. -/
def dat2case (s : Text) : Py (List Case) := casesOf (Doc.splitLines [] s)

/-- t2k.py:25-55 -/
def dat : Text :=
  t!"1 0 0\n" ++ t!"2 1 0\n" ++ t!"3 1 1\n" ++ t!"4 0 1\n" ++ t!"5 0,1 0,0\n" ++ t!"6 0,1 1,0\n" ++ t!"7 0,1 0,1\n" ++
  t!"8 1,0 0,1\n" ++ t!"9 0,0 0,1\n" ++ t!"10 0,0,1 0,0,0\n" ++ t!"11 0,0,1 1,0,0\n" ++ t!"12 0,0,1 0,1,0\n" ++
  t!"13 0,0,1 0,0,1\n" ++ t!"14 0,1,0 0,0,1\n" ++ t!"15 1,0,0 0,0,1\n" ++ t!"16 0,0,0 0,0,1\n" ++
  t!"17 0,0,0,1 0,0,0,0\n" ++ t!"18 0,0,0,1 1,0,0,0\n" ++ t!"19 0,0,0,1 0,1,0,0\n" ++ t!"20 0,0,0,1 0,0,1,0\n" ++
  t!"21 0,0,0,1 0,0,0,1\n" ++ t!"22 0,0,1,0 0,0,0,1\n" ++ t!"23 0,1,0,0 0,0,0,1\n" ++ t!"24 1,0,0,0 0,0,0,1\n" ++
  t!"25 0,0,0,0 0,0,0,1 \n" ++ t!"49 0,0,0,0,0,0 0,0,0,0,0,1\n" ++ t!"50 2 0\n" ++ t!"51 2 1\n" ++ t!"65 1,1 0\n"

/-- `''.join([str(i) for i in xs])` -/
def joined (xs : List Int) : Text := xs.flatMap pyStr

/-- The name of a test, t2k.py:13-16 -/
def testName (c : Case) : Text := t!"t2k_" ++ joined c.2.1 ++ joined c.2.2 ++ t!"_test"

/-- `str` of a tuple of numbers: a comma behind the only one.  (Numbers from 2^63 on would have an `L` behind them.) -/
def tupleText : List Int → Text
  | [] => t!"()"
  | [x] => '(' :: pyStr x ++ t!",)"
  | x :: xs => '(' :: pyStr x ++ (xs.flatMap fun y => t!", " ++ pyStr y) ++ t!")"

/-- `str` of the pair of them. -/
def pairText (us them : List Int) : Text := '(' :: tupleText us ++ t!", " ++ tupleText them ++ t!")"

/-- `writetest`, t2k.py:9-22: the lines printed.  `print a, b` writes a blank between them. -/
def writetest (c : Case) : Text :=
  t!"  def " ++ testName c ++ t!"(self):\n" ++
  t!"    self.assertEqual(t2k(\n" ++
  t!"         " ++ pairText c.2.1 c.2.2 ++ t!" ,\n" ++
  t!"        ),\n" ++
  t!"    " ++ pyStr c.1 ++ t!" )\n"

/-- t2k.py:94-105 -/
def heading : Text :=
  t!"#!/usr/bin/env python\n" ++ t!"# -*- coding: us-ascii -*-\n" ++ t!"# vim: syntax=python\n" ++ t!"#\n" ++ t!"# DO NOT EDIT\n" ++
  t!"# this test file is generated by t2k.py\n" ++ t!"\n" ++ t!"import unittest\n" ++ t!"from bglib.encoding.bearoff.trice import *\n" ++
  t!"\n" ++ t!"\n" ++ t!"class ConvTest(unittest.TestCase):\n"

/-- What the program writes for the cases, t2k.py:93-107 -/
def output (cs : List Case) : Text := heading ++ cs.flatMap writetest

/-- t2k.py:68-85 -/
def selftest : List Case := [
  (1, [0,0,0,0,0,0], [0,0,0,0,0,0]), (2, [1,0,0,0,0,0], [0,0,0,0,0,0]), (3, [1,0,0,0,0,0], [1,0,0,0,0,0]),
  (4, [0,0,0,0,0,0], [1,0,0,0,0,0]), (5, [0,1,0,0,0,0], [0,0,0,0,0,0]), (6, [0,1,0,0,0,0], [1,0,0,0,0,0]),
  (7, [0,1,0,0,0,0], [0,1,0,0,0,0]), (8, [1,0,0,0,0,0], [0,1,0,0,0,0]), (9, [0,0,0,0,0,0], [0,1,0,0,0,0]),
  (10, [0,0,1,0,0,0], [0,0,0,0,0,0]), (11, [0,0,1,0,0,0], [1,0,0,0,0,0]), (25, [0,0,0,0,0,0], [0,0,0,1,0,0]),
  (49, [0,0,0,0,0,0], [0,0,0,0,0,1]), (50, [2,0,0,0,0,0], [0,0,0,0,0,0]), (51, [2,0,0,0,0,0], [1,0,0,0,0,0]),
  (65, [1,1,0,0,0,0], [0,0,0,0,0,0])]

/-- `d[n]`, t2k.py:88: the last case with the number. -/
def lookup (cs : List Case) (n : Int) : Option (List Int × List Int) := ((cs.reverse.find? fun c => c.1 = n).map (·.2))

/-- t2k.py:89-90 -/
def check (cs : List Case) : List Case → Py Unit
  | [] => .ok ()
  | (n, t) :: r =>
    match lookup cs n with
    | none => .error .keyError
    | some u => if u = t then check cs r else .error .assertion

/-- The program, t2k.py:87-107 -/
def main (s : Text) : Py Text := do
  let cs ← dat2case s
  check cs selftest
  return output cs

end Bglib.BearoffTests
