import Verif.Model.Stat
/-
Model of the tournaments of `bglib/stat/tourney.py` in which the `Player` objects are objects: a
tournament made with `entries` copies the dictionary, but not the players in it, so that what the
tournament does to them is done to the players of whoever gave them.  (`Model/Stat.lean` has the players
in the tournament itself.)  Floating point numbers are replaced by real numbers.
-/
namespace Bglib

noncomputable section
open Classical

/-- The state of a `Tourney`, tourney.py:73-81, together with all `Player` objects there are: object
number `i` is `players i`.  The two dictionaries are lists of their items, from keys to objects. -/
structure Contest (κ : Type) where
  players : Nat → Player
  alive : List (κ × Nat)
  dead : List (κ × Nat)
  matchlength : ℝ

variable {κ : Type} [DecidableEq κ]

/-- tourney.py:74-81 with `entries`; `dict(entries)` (line 79) has the same players as `entries`. -/
def Contest.ofEntries (players : Nat → Player) (entries : List (κ × Nat)) : Contest κ :=
  ⟨players, entries, [], 7⟩

/-- `self.alive[k]`: which object it is. -/
def Contest.entry (c : Contest κ) (k : κ) : Py Nat :=
  match c.alive.find? (fun e => e.1 = k) with
  | some e => .ok e.2
  | none => .error .keyError

/-- tourney.py:103-106 and 108-111, with 66-70: the object of `k` loses a life; with none left, `k` and
the object move to the dead. -/
def Contest.lost (c : Contest κ) (k : κ) : Py (Contest κ) := do
  let r ← c.entry k
  let players := fun i => if i = r then ⟨(c.players i).lives - 1, (c.players i).rating⟩ else c.players i
  if (players r).lives ≤ 0 then
    return ⟨players, c.alive.filter (fun e => e.1 ≠ k), c.dead.filter (fun e => e.1 ≠ k) ++ [(k, r)], c.matchlength⟩
  else
    return ⟨players, c.alive, c.dead, c.matchlength⟩

/-- One pass of the loop, tourney.py:88-111; `coin` is the value of `random.random()`. -/
def Contest.meet (c : Contest κ) (a b : κ) (coin : ℝ) : Py (Contest κ) := do
  let ra ← c.entry a
  let rb ← c.entry b
  let wA ← chanceOfFirst (c.players ra).rating (c.players rb).rating c.matchlength
  if coin ≤ wA then c.lost b else c.lost a

/-- The loop tourney.py:87-111 over the shuffled keys, in pairs; an odd one sits out. -/
def Contest.pairs (c : Contest κ) (coins : Nat → ℝ) (i : Nat) : List κ → Py (Contest κ)
  | a :: b :: xs =>
    match c.meet a b (coins i) with
    | .ok c' => Contest.pairs c' coins (i + 1) xs
    | .error e => .error e
  | _ => .ok c

/-- tourney.py:83-111: `xs` are the keys of `alive` in the order `random.shuffle` leaves them. -/
def Contest.round (c : Contest κ) (xs : List κ) (coins : Nat → ℝ) : Py (Contest κ) := c.pairs coins 0 xs

/-- `while len(t.alive) > 1: t.round()`, as in tourney_test.py:62-63. -/
def Contest.run (shuffle : Nat → List κ → List κ) (coins : Nat → Nat → ℝ) :
    Nat → Nat → Contest κ → Py (Contest κ)
  | 0, _, _ => .error .diverges
  | fuel + 1, n, c =>
    if c.alive.length > 1 then
      match c.round (shuffle n (c.alive.map (·.1))) (coins n) with
      | .ok c' => Contest.run shuffle coins fuel (n + 1) c'
      | .error e => .error e
    else .ok c

end
end Bglib
