import Verif.Model.Bearoff
/-
Bearoff positions of one side.
-/
namespace Bglib.Spec

/-- A one-sided position: at most `c` chequers on `p` points (`t[i]` chequers on point `i + 1`). -/
def OnPoints (t : List Nat) (p c : Nat) : Prop := t.length = p ∧ t.sum ≤ c

/-- A chequer at each of the places: place `2 i` is the mover's point `i + 1`, place `2 i + 1` the other
player's. -/
def chequersAt (l : List Nat) : List Nat × List Nat :=
  ((List.range 6).map fun i => l.count (2 * i), (List.range 6).map fun i => l.count (2 * i + 1))

/-- Twenty pairs of positions. -/
def sharedKeys : List (List Nat × List Nat) :=
  [([0], [8, 10]), ([1], [8, 11]), ([3], [9, 9]), ([4], [9, 10]), ([5], [9, 11]),
   ([7], [10, 10]), ([8], [10, 11]), ([10], [11, 11]), ([0, 0], [8, 9, 11]), ([0, 2], [8, 10, 10]),
   ([0, 3], [8, 10, 11]), ([0, 5], [8, 11, 11]), ([0, 8], [9, 9, 9]), ([0, 9], [9, 9, 10]), ([0, 10], [9, 9, 11]),
   ([1, 1], [9, 10, 11]), ([1, 3], [9, 11, 11]), ([1, 6], [10, 10, 10]), ([1, 7], [10, 10, 11]), ([1, 9], [10, 11, 11])]

end Bglib.Spec

namespace Bglib

/-- What the code relies on from the external `C_Hash`/`C_RHash`: for each length `n` and number of ones
`c` the first numbers the 0-1 lists by `0 .. C(n, c) - 1`, the second is its inverse, and a zero at the
most significant end makes no difference. -/
structure HashPair.Ok (H : HashPair) : Prop where
  range : ∀ xs c, xs.count true = c → H.hash xs c < xs.length.choose c
  inj : ∀ xs ys c, xs.length = ys.length → xs.count true = c → ys.count true = c →
    H.hash xs c = H.hash ys c → xs = ys
  inverse : ∀ k n c, k < n.choose c →
    (H.rhash k n c).length = n ∧ (H.rhash k n c).count true = c ∧ H.hash (H.rhash k n c) c = k
  leading : ∀ xs c, H.hash (false :: xs) c = H.hash xs c

/-- The usual combinatorial numbering, most significant place first. -/
def rankHash : List Bool → Nat → Nat
  | [], _ => 0
  | true :: xs, c => xs.length.choose c + rankHash xs (c - 1)
  | false :: xs, c => rankHash xs c

/-- Its inverse. -/
def rankUnhash (k : Nat) : Nat → Nat → List Bool
  | 0, _ => []
  | n + 1, 0 => false :: rankUnhash k n 0
  | n + 1, c + 1 =>
    if n.choose (c + 1) ≤ k then true :: rankUnhash (k - n.choose (c + 1)) n c
    else false :: rankUnhash k n (c + 1)

def rankPair : HashPair := ⟨rankHash, rankUnhash⟩

end Bglib
