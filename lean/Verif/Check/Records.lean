import Verif.Model.SnowieLine
/-
Evidence for the model of records: the tests of `record/snowietxt_test.py`, with the record
`record/snowietxt/1857680.txt`, whole, and the record `zoonk-nori-2009Jan151857.txt`.  (The SHA sums are not modelled.)
-/
namespace Bglib.Check
open Bglib Bglib.Snowie

/-- `record/snowietxt/1857680.txt` -/
def record1 : List Text := [
  t!" 5 point match\n",
  t!"\n",
  t!" Game 1\n",
  t!" DianaIN : 0                         bgnori : 0\n",
  t!"  1) 31: 8/5 6/5                     41: 24/23 13/9\n",
  t!"  2) 63: 24/18 18/15                 62: 13/7 9/7\n",
  t!"  3) 52: 15/10 10/8                  31: 8/5 6/5\n",
  t!"  4) 63: 24/21 21/15                 54: 23/18 13/9\n",
  t!"  5) 64: 15/9 9/5                    41: 18/14 14/13\n",
  t!"  6) 53: 8/3 6/3                     33: 7/4 7/4 6/3 6/3\n",
  t!"  7) 65: 13/7 13/8                   22: 13/11 11/9 9/7 9/7\n",
  t!"  8) 61: 13/7 8/7                    42: 8/4 4/2\n",
  t!"  9) 52: 13/8 13/11                  43: 24/21 13/9\n",
  t!" 10) 43: 8/4* 7/4                    42: 25/23 13/9\n",
  t!" 11) 52: 11/6 6/4                    32: 9/6 9/7\n",
  t!" 12) 65: 8/2* 7/2                    61: 25/24 24/18*\n",
  t!" 13) 53:                              Doubles => 2\n",
  t!" 14)  Takes                          54: 8/4 7/2\n",
  t!" 15) 64:                             32: 6/4 4/1\n",
  t!" 16) 21: 25/24* 8/6                  51: 25/24 18/13\n",
  t!" 17) 41: 6/2 4/3                     66: 24/18 18/12 13/7 12/6\n",
  t!" 18) 53: 6/1 5/2                     65: 7/1* 6/1\n",
  t!" 19) 53:                             53: 7/2 7/4\n",
  t!" 20) 21:                             41: 4/0 2/1\n",
  t!" 21) 42:                             63: 6/0 6/3\n",
  t!" 22) 41:                             63: 5/0 5/2\n",
  t!" 23) 21:                             54: 4/0 4/0\n",
  t!" 24) 64: 25/19 19/15                 66: 4/0 3/0 3/0 3/0\n",
  t!" 25) 62: 15/9 9/7                    51: 2/0 1/0\n",
  t!" 26) 63: 7/1 3/0                     Wins 2 points\n",
  t!"\n",
  t!" Game 2\n",
  t!" DianaIN : 0                         bgnori : 2\n",
  t!"  1) 61: 13/7 8/7                    21: 24/23 13/11\n",
  t!"  2) 33: 13/10 13/10 6/3 6/3         66: 13/7 13/7 13/7 13/7\n",
  t!"  3) 11: 24/23 24/23 13/12 13/12     43: 24/20 23/20\n",
  t!"  4) 41: 6/2 2/1                     31: 8/5 6/5\n",
  t!"  5) 22: 23/21 23/21 6/4 6/4         63: 20/14 14/11\n",
  t!"  6) 42: 12/8 12/10                  32: 7/5 6/3\n",
  t!"  7) 33: 8/5* 8/5 4/1 4/1            22: 25/23 23/21 21/19 19/17*\n",
  t!"  8) 51: 25/24 10/5                  41: 17/16 7/3\n",
  t!"  9) 62: 10/4 10/8                   52: 16/11 5/3\n",
  t!" 10) 61: 8/2 5/4                     32: 11/8 8/6\n",
  t!" 11) 61: 7/1 7/6                     64: 11/5 11/7\n",
  t!" 12) 51: 6/1 2/1                      Doubles => 2\n",
  t!" 13)  Takes                          42: 5/1* 3/1\n",
  t!" 14) 64: 25/21 21/15                 62: 8/2 8/6\n",
  t!" 15) 62: 15/9 9/7                    51: 7/2 6/5\n",
  t!" 16) 55: 21/16 16/11 11/6 7/2        53: 6/1 6/3\n",
  t!" 17) 54: 21/16 16/12                 32: 7/4 7/5\n",
  t!" 18) 32: 12/9 9/7                    52: 5/0 2/0\n",
  t!" 19) 54: 7/2 4/0                     41: 4/0 1/0\n",
  t!" 20) 65: 6/0 5/0                     43: 6/2 3/0\n",
  t!" 21) 51: 5/0 1/0                     66: 6/0 5/0 5/0 5/0\n",
  t!" 22) 44: 4/0 3/0 3/0 2/0             11: 2/1 1/0 1/0 1/0\n",
  t!" 23) 51: 2/0 1/0                     62: 3/0 2/0\n",
  t!" 24) 32: 1/0 1/0                     Wins 2 points\n",
  t!"\n",
  t!" Game 3\n",
  t!" DianaIN : 0                         bgnori : 4\n",
  t!"  1) 43: 13/9 13/10                  32: 24/22 13/10\n",
  t!"  2) 42: 8/4 6/4                     22: 22/20 20/18 18/16* 16/14\n",
  t!"  3) 65: 25/20 20/14                 43: 14/11* 10/6\n",
  t!"  4) 32: 25/22 24/22                 31: 8/5 6/5\n",
  t!"  5) 62: 24/22 10/4                  63: 24/18 18/15\n",
  t!"  6) 11: 8/7 8/7 6/5 6/5             41: 15/11 6/5\n",
  t!"  7) 31: 13/10 10/9                  66: 13/7 13/7 13/7 13/7\n",
  t!"  8) 54: 13/8 13/9                   41: 11/7 7/6\n",
  t!"  9) 62: 8/2 4/2                     43: 11/8 6/2\n",
  t!" 10) 52: 9/4 9/7                     42: 8/4 6/4\n",
  t!" 11) 64: 22/16 16/12                 62: 8/2 8/6\n",
  t!" 12) 54: 12/7 7/3                    64: 7/1 5/1\n",
  t!" 13) 42: 7/3 7/5                     42: 7/5 6/2\n",
  t!" 14) 31: 5/2 4/3                     61: 7/1 7/6\n",
  t!" 15) 31: 7/4 4/3                     42: 6/2 2/0\n",
  t!" 16) 61: 22/16 16/15                 65: 6/0 5/0\n",
  t!" 17) 32: 15/12 12/10                 64: 6/0 6/2\n",
  t!" 18) 63: 10/4 4/1                    61: 5/0 5/4\n",
  t!" 19) 52: 22/17 17/15                 64: 4/0 4/0\n",
  t!" 20) 52: 15/10 10/8                  53: 4/0 2/0\n",
  t!"                                      Wins 1 point and the match\n"]

/-- `record/snowietxt/zoonk-nori-2009Jan151857.txt` -/
def record2 : List Text := [
  t!" 3 point match\n",
  t!"\n",
  t!" Game 1\n",
  t!" zoonk,1666 : 0                   nori,1699 : 0\n",
  t!"  1)                             26: 24/18 13/11\n",
  t!"  2) 15: 8/7 6/1                 55: 25/20 25/20 8/3 8/3\n",
  t!"  3) 42: 13/9 9/7                42: 8/4 6/4\n",
  t!"  4) 62: 13/7 6/4                63: 20/14 14/11\n",
  t!"  5) 24: 7/5 5/1                  Doubles => 2\n",
  t!"  6)  Takes                      66: \n",
  t!"  7) 26: 6/4 13/7                36: 25/22 22/16\n",
  t!"  8) 15: 7/2 24/23               34: 6/2 16/13\n",
  t!"  9) 12: 25/23 24/23             33: 25/22 11/8 11/8 13/10\n",
  t!" 10) 35: 23/18 18/15             63: 25/22 8/2\n",
  t!" 11) 34:                         63: 8/2 13/10\n",
  t!" 12) 11: 25/24 25/24 6/5 6/5     65: 10/4 13/8\n",
  t!" 13) 51: 7/2 7/6                 64: 13/7 13/9\n",
  t!" 14) 21: 13/11 6/5               55: 7/2 8/3 9/4\n",
  t!" 15) 26: 13/7 7/5                22: 6/4 6/4 6/4 4/2\n",
  t!" 16) 23: 4/1 4/2                 35: 22/19 19/14\n",
  t!" 17) 43:                         41: 22/18 14/13\n",
  t!" 18) 34:                         14: 18/14 13/12\n",
  t!" 19) 62: 25/19 5/3               51: 12/7 7/6\n",
  t!" 20) 21: 25/24 5/3               23: 14/11 6/4\n",
  t!" 21) 23: 8/5 8/6                 14: 11/7 7/6\n",
  t!" 22) 23: 6/4 5/2                 42: 6/2 2/0\n",
  t!" 23) 54: 24/19 19/15             46: 4/0 4/0\n",
  t!" 24) 13: 15/12 12/11             26: 4/0 2/0\n",
  t!" 25) 46: 24/18 18/14             12: 3/1 2/1\n",
  t!" 26) 44:                         65: 4/0 4/0\n",
  t!" 27) 14:                         41: 4/0 4/3\n",
  t!" 28) 14: 25/21 21/20             64: 3/0 3/0\n",
  t!" 29) 51: 11/6 14/13              25: 3/0 2/0\n",
  t!" 30) 22: 13/11 20/18 18/16 16/14 51: 2/0 1/0\n",
  t!" 31) 43: 14/10 11/8              45: 1/0\n",
  t!"                                  Wins 4 points\n"]

/-- What the lines of `record1` are. -/
def kinds1 : List Kind := [
  .matchLength, .empty, .gameHeader, .playerHeader, .moves 1, .moves 2, .moves 3, .moves 4,
  .moves 5, .moves 6, .moves 7, .moves 8, .moves 9, .moves 10, .moves 11, .moves 12, .moves 13,
  .moves 14, .moves 15, .moves 16, .moves 17, .moves 18, .moves 19, .moves 20, .moves 21,
  .moves 22, .moves 23, .moves 24, .moves 25, .moves 26, .empty, .gameHeader, .playerHeader,
  .moves 1, .moves 2, .moves 3, .moves 4, .moves 5, .moves 6, .moves 7, .moves 8, .moves 9,
  .moves 10, .moves 11, .moves 12, .moves 13, .moves 14, .moves 15, .moves 16, .moves 17,
  .moves 18, .moves 19, .moves 20, .moves 21, .moves 22, .moves 23, .moves 24, .empty, .gameHeader,
  .playerHeader, .moves 1, .moves 2, .moves 3, .moves 4, .moves 5, .moves 6, .moves 7, .moves 8,
  .moves 9, .moves 10, .moves 11, .moves 12, .moves 13, .moves 14, .moves 15, .moves 16, .moves 17,
  .moves 18, .moves 19, .moves 20, .result]

theorem record1_kinds : record1.map kindOf = kinds1 := by decide +kernel

/-- What the lines of `record2` are. -/
def kinds2 : List Kind := [
  .matchLength, .empty, .gameHeader, .playerHeader, .moves 1, .moves 2, .moves 3, .moves 4,
  .moves 5, .moves 6, .moves 7, .moves 8, .moves 9, .moves 10, .moves 11, .moves 12, .moves 13,
  .moves 14, .moves 15, .moves 16, .moves 17, .moves 18, .moves 19, .moves 20, .moves 21,
  .moves 22, .moves 23, .moves 24, .moves 25, .moves 26, .moves 27, .moves 28, .moves 29,
  .moves 30, .moves 31, .result]

theorem record2_kinds : record2.map kindOf = kinds2 := by decide +kernel

/-- The lines of a record with kinds already known. -/
def known (ts : List Text) (ks : List Kind) : List Line := List.zipWith (fun k t => ⟨k, t⟩) ks ts

theorem known_eq : ∀ {ts : List Text} {ks : List Kind}, ts.map kindOf = ks → ts.map lineOf = known ts ks
  | [], _, rfl => rfl
  | t :: ts, _, rfl => congrArg (lineOf t :: ·) (known_eq (ts := ts) rfl)

/-- `startswith` and `endswith` -/
def starts (s p : Text) : Bool := p.isPrefixOf s
def ends (s p : Text) : Bool := p.isSuffixOf s

/-- `test_1857680`, without the sum -/
example : validate 0 (record1.map lineOf) = .ok () := by rw [known_eq record1_kinds]; decide +kernel

/-- `test_bad` -/
example : validate 0 ([t!"hogehoge\n", t!"zooba\n"].map lineOf) = .error .valueError := by decide +kernel

/-- `test_too_long` -/
example : validate 10 ((List.replicate 10 t!"hoge\n").map lineOf) = .error .valueError := by decide +kernel

/-- `test_chop_1857680` -/
example : (chop (record1.map lineOf)).raised = none ∧ (chop (record1.map lineOf)).values.length = 3 ∧
    starts ((chop (record1.map lineOf)).values.getD 0 []) (t!" 5 point match\n" ++
    t!"\n" ++
    t!" Game 1\n" ++
    t!" DianaIN : 0                         bgnori : 0\n" ++
    t!"  1) 31: 8/5 6/5                     41: 24/23 13/9\n") = true ∧
    ends ((chop (record1.map lineOf)).values.getD 0 []) (t!" 24) 64: 25/19 19/15                 66: 4/0 3/0 3/0 3/0\n" ++
    t!" 25) 62: 15/9 9/7                    51: 2/0 1/0\n" ++
    t!" 26) 63: 7/1 3/0                     Wins 2 points\n") = true ∧
    starts ((chop (record1.map lineOf)).values.getD 1 []) (t!" 5 point match\n" ++
    t!"\n" ++
    t!" Game 2\n" ++
    t!" DianaIN : 0                         bgnori : 2\n" ++
    t!"  1) 61: 13/7 8/7                    21: 24/23 13/11\n") = true ∧
    ends ((chop (record1.map lineOf)).values.getD 1 []) (t!" 22) 44: 4/0 3/0 3/0 2/0             11: 2/1 1/0 1/0 1/0\n" ++
    t!" 23) 51: 2/0 1/0                     62: 3/0 2/0\n" ++
    t!" 24) 32: 1/0 1/0                     Wins 2 points\n") = true ∧
    starts ((chop (record1.map lineOf)).values.getD 2 []) (t!" 5 point match\n" ++
    t!"\n" ++
    t!" Game 3\n" ++
    t!" DianaIN : 0                         bgnori : 4\n" ++
    t!"  1) 43: 13/9 13/10                  32: 24/22 13/10\n" ++
    t!"  2) 42: 8/4 6/4                     22: 22/20 20/18 18/16* 16/14\n") = true ∧
    ends ((chop (record1.map lineOf)).values.getD 2 []) (t!" 19) 52: 22/17 17/15                 64: 4/0 4/0\n" ++
    t!" 20) 52: 15/10 10/8                  53: 4/0 2/0\n" ++
    t!"                                      Wins 1 point and the match\n") = true := by
  rw [known_eq record1_kinds]; decide +kernel

/-- `test_chop_zoonk_nori_2009Jan151857` -/
example : (chop (record2.map lineOf)).raised = none ∧ (chop (record2.map lineOf)).values.length = 1 ∧
    starts ((chop (record2.map lineOf)).values.getD 0 []) (t!" 3 point match\n" ++
    t!"\n" ++
    t!" Game 1\n" ++
    t!" zoonk,1666 : 0                   nori,1699 : 0\n" ++
    t!"  1)                             26: 24/18 13/11\n") = true := by
  rw [known_eq record2_kinds]; decide +kernel

end Bglib.Check
