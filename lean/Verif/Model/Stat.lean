import Verif.Py
import Mathlib.Analysis.SpecialFunctions.Pow.Real
import Mathlib.Analysis.Real.Sqrt
/-
Model of `bglib/stat/rating.py` and `bglib/stat/tourney.py`.

Python's floating point numbers are replaced by real numbers: rounding, overflow and infinities are not
modelled.
-/
namespace Bglib

noncomputable section
open Classical

/-! ### `rating.py` -/

/-- rating.py:13-15.  `math.sqrt` of a negative number is a `ValueError`. -/
def upsetChance (high low length : ℝ) : Py ℝ :=
  if high ≥ low then
    if length < 0 then .error .valueError
    else .ok (1 / ((10 : ℝ) ^ ((high - low) * Real.sqrt length / 2000) + 1))
  else .error .assertion

/-- rating.py:18-19 -/
def winningChance (high low length : ℝ) : Py ℝ := do
  let u ← upsetChance high low length
  return 1 - u

/-- rating.py:22-26 -/
def gainOnWin (player opp length : ℝ) : Py ℝ :=
  if player ≥ opp then do
    let u ← upsetChance player opp length
    return length * u
  else do
    let u ← upsetChance opp player length
    return length * (1 - u)

/-! ### `tourney.py`: handicaps -/

/-- tourney.py:11-20.  `rounds` is a Python integer, `**` the power with an integer exponent. -/
def tourneyChance (player average : ℝ) (rounds : ℤ) (length : ℝ) : Py (ℝ × ℝ) :=
  if player ≥ average then do
    let uc ← upsetChance player average length
    return ((1 - uc) ^ rounds, (1 - uc) ^ (rounds - 1) * uc)
  else do
    let wc ← upsetChance average player length
    return (wc ^ rounds, wc ^ (rounds - 1) * (1 - wc))

/-- tourney.py:23-38.  The divisors are never zero (`C29_prize`). -/
def prizeHandicap (player average : ℝ) (rounds : ℤ) (length winner runnerup : ℝ) : Py (ℝ × ℝ) := do
  let (avW, avR) ← tourneyChance average average rounds length
  let expectedW := avW * winner
  let expectedR := avR * runnerup
  let (w, r) ← tourneyChance player average rounds length
  return (expectedW / w, expectedR / r)

/-- tourney.py:41-57 -/
def entryfeeHandicap (player average : ℝ) (rounds : ℤ) (length fee : ℝ) : Py ℝ := do
  let (avW, _) ← tourneyChance average average rounds length
  let expectedW := fee / avW
  let (w, _) ← tourneyChance player average rounds length
  return expectedW * w

/-! ### `tourney.py`: tournaments -/

/-- tourney.py:61-70 -/
structure Player where
  lives : Int
  rating : ℝ

/-- The state of a `Tourney`, tourney.py:73-81.  The two dictionaries are lists of their items; the
`Player` objects of different entries are assumed to be different objects. -/
structure Tourney (κ : Type) where
  alive : List (κ × Player)
  dead : List (κ × Player)
  matchlength : ℝ

variable {κ : Type} [DecidableEq κ]

/-- tourney.py:74-81, without `entries` -/
def Tourney.new (n : Nat) : Tourney Nat :=
  ⟨(List.range n).map fun i => (i, ⟨3, 1000⟩), [], 7⟩

/-- tourney.py:74-81, with `entries` (a dictionary) -/
def Tourney.ofEntries (entries : List (κ × Player)) : Tourney κ := ⟨entries, [], 7⟩

/-- `self.alive[k]` -/
def Tourney.player (t : Tourney κ) (k : κ) : Py Player :=
  match t.alive.find? (fun e => e.1 = k) with
  | some e => .ok e.2
  | none => .error .keyError

/-- tourney.py:103-106 and 108-111: `k` loses a life and, with none left, moves to the dead. -/
def Tourney.lost (t : Tourney κ) (k : κ) : Py (Tourney κ) := do
  let p ← t.player k
  let p' : Player := ⟨p.lives - 1, p.rating⟩
  if p'.lives ≤ 0 then
    return ⟨t.alive.filter (fun e => e.1 ≠ k), t.dead.filter (fun e => e.1 ≠ k) ++ [(k, p')], t.matchlength⟩
  else
    return ⟨t.alive.map (fun e => if e.1 = k then (k, p') else e), t.dead, t.matchlength⟩

/-- `w_a`, tourney.py:90-100 -/
def chanceOfFirst (ra rb length : ℝ) : Py ℝ :=
  if ra ≥ rb then winningChance ra rb length
  else do
    let w ← winningChance rb ra length
    return 1 - w

/-- One pass of the loop, tourney.py:88-111; `coin` is the value of `random.random()`. -/
def Tourney.meet (t : Tourney κ) (a b : κ) (coin : ℝ) : Py (Tourney κ) := do
  let pa ← t.player a
  let pb ← t.player b
  let wA ← chanceOfFirst pa.rating pb.rating t.matchlength
  if coin ≤ wA then t.lost b else t.lost a

/-- The loop tourney.py:87-111 over the shuffled keys `xs`, in pairs; an odd one sits out.  `coins` are
the values of `random.random()` in order, `i` the number of the pair. -/
def Tourney.pairs (t : Tourney κ) (coins : Nat → ℝ) (i : Nat) : List κ → Py (Tourney κ)
  | a :: b :: xs =>
    match t.meet a b (coins i) with
    | .ok t' => Tourney.pairs t' coins (i + 1) xs
    | .error e => .error e
  | _ => .ok t

/-- tourney.py:83-111: `xs` are the keys of `alive` in the order `random.shuffle` leaves them. -/
def Tourney.round (t : Tourney κ) (xs : List κ) (coins : Nat → ℝ) : Py (Tourney κ) := t.pairs coins 0 xs

/-- `while len(t.alive) > 1: t.round()`, as in tourney_test.py:62-63 and 3knockout.py:15-17. -/
def Tourney.run (shuffle : Nat → List κ → List κ) (coins : Nat → Nat → ℝ) :
    Nat → Nat → Tourney κ → Py (Tourney κ)
  | 0, _, _ => .error .diverges
  | fuel + 1, n, t =>
    if t.alive.length > 1 then
      match t.round (shuffle n (t.alive.map (·.1))) (coins n) with
      | .ok t' => Tourney.run shuffle coins fuel (n + 1) t'
      | .error e => .error e
    else .ok t

end
end Bglib
