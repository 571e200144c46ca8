import Verif.Model.Stat
/-
Model of `bglib/stat/3knockout.py`, the script that plays many tournaments of three lives and counts the
rounds they take.
-/
namespace Bglib

noncomputable section
variable {κ : Type} [DecidableEq κ]

/-- 3knockout.py:11-15, from the pass of the loop with `c` rounds counted; the result is `c` at the end.
`shuffle c` and `coins c` are what `random` gives in that round. -/
def countRounds (shuffle : Nat → List κ → List κ) (coins : Nat → Nat → ℝ) :
    Nat → Nat → Tourney κ → Py Nat
  | 0, _, _ => .error .diverges
  | fuel + 1, c, t =>
    if t.alive.length > 1 then
      match t.round (shuffle c (t.alive.map (·.1))) (coins c) with
      | .ok t' => countRounds shuffle coins fuel (c + 1) t'
      | .error e => .error e
    else .ok c

/-- `d.update({c:d.get(c, 0)+1})`, 3knockout.py:17; the dictionary is the list of its items. -/
def tally (c : Nat) : List (Nat × Nat) → List (Nat × Nat)
  | [] => [(c, 0 + 1)]
  | (c', k) :: d => if c' = c then (c', k + 1) :: d else (c', k) :: tally c d

/-- What the random numbers of one experiment are. -/
structure Luck where
  shuffle : Nat → List Nat → List Nat
  coins : Nat → Nat → ℝ

/-- 3knockout.py:10-17: the experiments with the given luck, after `total` and `d`.  `fuel` bounds the
rounds of each. -/
def experiments (fuel n : Nat) : List Luck → ℝ → List (Nat × Nat) → Py (ℝ × List (Nat × Nat))
  | [], total, d => .ok (total, d)
  | x :: xs, total, d =>
    match countRounds x.shuffle x.coins fuel 0 (Tourney.new n) with
    | .ok c => experiments fuel n xs (total + c) (tally c d)
    | .error e => .error e

/-- 3knockout.py:8-18: what is printed for `n` players; `EXP` is the number of experiments. -/
def knockoutLine (fuel n : Nat) (luck : List Luck) : Py (Nat × ℝ × List (Nat × Nat)) :=
  match experiments fuel n luck 0 [] with
  | .ok (total, d) => if luck.length = 0 then .error .zeroDivision else .ok (n, total / luck.length, d)
  | .error e => .error e

/-- 3knockout.py:7 -/
def knockoutSizes : List Nat :=
  (List.range 25).map (· + 5) ++ (List.range 17).map (fun i => 30 + 10 * i)

/-- 3knockout.py:5 -/
def knockoutExperiments : Nat := 100000

end
end Bglib
