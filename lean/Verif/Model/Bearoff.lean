import Verif.Py
import Mathlib.Data.Nat.Choose.Basic
/-
Model of `bglib/encoding/bearoff/`: `__init__.py`, `gnubgdb.py`, `nori.py`, `trice.py`.

`C`, `C_Hash` and `C_RHash` come from the external package `tonic`.  `C(n, r)` is taken to be the
binomial coefficient (it is only called with `0 ≤ r ≤ n`); for the two hash functions see `HashPair`.
Chequer counts are natural numbers.
-/
namespace Bglib

/-! ### `bearoff/__init__.py` -/

/-- `backward(t)`, bearoff/__init__.py:14-18: the loop from index `i` down; below index `-len` the
subscript raises `IndexError`. -/
def backwardLoop (t : List Nat) : Nat → Int → Py Int
  | 0, _ => .error .diverges
  | fuel + 1, i =>
    match pyGet t i with
    | .error e => .error e
    | .ok x => if x = 0 then backwardLoop t fuel (i - 1) else .ok (i + 1)

/-- bearoff/__init__.py:14-18 -/
def backward (t : List Nat) : Py Int := backwardLoop t (t.length + 26) 24

/-- bearoff/__init__.py:20-24 -/
def countChequers (t : List Nat) : Nat := t.foldl (· + ·) 0

/-- bearoff/__init__.py:27-34; for `n ≥ 1` -/
def triceD (n m : Nat) : Nat := (n + m - 1).choose m

/-- bearoff/__init__.py:44 -/
def WTN : Nat := 18528584051601162496

/-- bearoff/__init__.py:50-52, for `m ≤ 15` -/
def backgammonCombination (m : Nat) : Nat := Nat.choose 24 m * triceD (m + 2) (15 - m) * triceD (26 - m) 15

/-- bearoff/__init__.py:54-56, for `m ≤ 15` -/
def backgammonCombinationAllC (m : Nat) : Nat :=
  Nat.choose 24 m * Nat.choose 16 (15 - m) * Nat.choose (40 - m) 15

/-! ### Reading records -/

/-- How much one `read` asked for `datalen` bytes is willing to deliver. -/
def readSize (datalen : Nat) : List Nat → Nat
  | [] => datalen
  | p :: _ => min (max 1 p) datalen

/-- The `while` loop of `rawread`, bearoff/__init__.py:73-78.  `rest` is the file from the current
position on.  The operating system decides how much of a request it satisfies: `plan` gives, read by
read, the amount it is willing to deliver; a read delivers at least one byte unless the file is at its
end, and never more than asked for.  When the plan is exhausted reads are delivered in full. -/
def rawreadLoop (datalen : Nat) : Nat → List Nat → List Nat → List Nat → Py (List Nat)
  | 0, _, _, _ => .error .diverges
  | fuel + 1, plan, rest, buf =>
    if buf.length < datalen then
      let k := readSize datalen plan
      let read := rest.take k
      if read ≠ [] then rawreadLoop datalen fuel plan.tail (rest.drop k) (buf ++ read)
      else .error .indexError
    else .ok (buf.take datalen)

/-- bearoff/__init__.py:69-79.  Seeking behind the end is allowed, seeking to a negative position is an
`IOError`. -/
def rawread (file : List Nat) (datalen : Nat) (plan : List Nat) (index : Int) : Py (List Nat) :=
  if index * datalen < 0 then .error .ioError
  else rawreadLoop datalen (datalen + 1) plan (file.drop (index * datalen).toNat) []

/-! ### `gnubgdb.py` -/

/-- `f(b, n, r)`, gnubgdb.py:16-25.  `b` and `n` are natural in every call (the asserts on them hold).
With `n = 0 ≠ r` the shift count is negative (`ValueError`). -/
def gnubgF (b : Nat) : Nat → Int → Py Nat
  | n, r =>
    if r < 0 then .error .assertion
    else if (n : Int) = r then .ok 0
    else match n with
      | 0 => .error .valueError
      | n + 1 =>
        if b.testBit n then do
          let k ← gnubgF b n (r - 1)
          return n.choose r.toNat + k
        else gnubgF b n r

/-- The loop gnubgdb.py:33-39 -/
def setBits (bits : Nat) (j : Int) : List Nat → Nat
  | [] => bits
  | x :: xs =>
    let j := j - (x + 1)
    setBits (if j > -1 then bits ||| (1 <<< j.toNat) else bits) j xs

/-- gnubgdb.py:27-40.  A tuple shorter than `p` is an `IndexError`, no points at all a negative shift. -/
def onesideIndex (t : List Nat) (p c : Nat) : Py Nat :=
  if t.length < p then .error .indexError
  else
    let xs := t.take p
    let j : Int := (p : Int) - 1 + (xs.foldl (· + ·) 0 : Nat)
    if j < 0 then .error .valueError
    else gnubgF (setBits (1 <<< j.toNat) j xs) (p + c) p

/-- `bearoff_param`, gnubgdb.py:42-44 -/
def bearoffParam (us them : List Nat) : Py (Int × Nat) := do
  let a ← backward us
  let b ← backward them
  return (max (max a b) 0, max (countChequers us) (countChequers them))

/-- `gnubg_Hugh_indexing`, gnubgdb.py:46-54, after the position has been decoded.  Both one-sided indices
are computed, but the function has no `return` statement: its value is `None`. -/
def hughIndexing (us them : List Nat) : Py (Option Nat) := do
  let (points, chequers) ← bearoffParam us them
  let _ ← onesideIndex us points.toNat chequers
  let _ ← onesideIndex them points.toNat chequers
  return none

/-- `DBReader.__getitem__`, bearoff/__init__.py:86-87, in the readers of gnubgdb.py:70-73 and
trice.py:70-71: `key_to_index` is declared without a `key` parameter, so that the call with one is a
`TypeError` before anything is read. -/
def dbGetItem (_file : List Nat) (_key : Text) : Py (List Nat) := .error .typeError

/-! ### `nori.py` -/

/-- The two external functions `tonic.combination.C_Hash(xs, c)` and `C_RHash(k, n, c)`: `xs` is a list
of zeros and ones with `c` ones, `n` its length. -/
structure HashPair where
  hash : List Bool → Nat → Nat
  rhash : Nat → Nat → Nat → List Bool

/-- `sigmaD`, nori.py:16-19: keys -1..15, here shifted by one. -/
def sigmaD : Nat → Nat
  | 0 => 0
  | 1 => 1
  | i + 2 => sigmaD (i + 1) + triceD 6 (i + 1)

/-- `sigmaD[i]` of the dictionary -/
def sigmaGet (i : Int) : Py Nat := if -1 ≤ i ∧ i ≤ 15 then .ok (sigmaD (i + 1).toNat) else .error .keyError

/-- nori.py:25-27: for each count that many ones, then a zero. -/
def unary : List Nat → List Bool
  | [] => []
  | x :: xs => List.replicate x true ++ false :: unary xs

/-- nori.py:21-31 -/
def noriT2k (H : HashPair) (t : List Nat) : Py Nat :=
  if t.length ≠ 6 then .error .assertion
  else do
    let c := countChequers t
    let s ← sigmaGet ((c : Int) - 1)
    return s + H.hash (unary t).reverse c

/-- The loop nori.py:42-48 over the bits: `xs[k] += 1` for a one, `k += 1` for a zero. -/
def fillPoints (xs : List Nat) (k : Nat) : List Bool → Py (List Nat)
  | [] => .ok xs
  | true :: bs =>
    match xs[k]? with
    | some x => fillPoints (xs.set k (x + 1)) k bs
    | none => .error .indexError
  | false :: bs => fillPoints xs (k + 1) bs

/-- nori.py:34-51: the loop `for c in range(15)` from `c` on. -/
def noriK2tLoop (H : HashPair) (n : Nat) : List Nat → Py (List Nat)
  | [] => .error .assertion
  | c :: cs =>
    if n < sigmaD (c + 1) then do
      let b := H.rhash (n - sigmaD c) (6 + c - 1) c
      let xs ← fillPoints [0, 0, 0, 0, 0, 0] 0 b
      return xs.reverse
    else noriK2tLoop H n cs

/-- nori.py:34-51 (the prints are left out; a negative key is outside the model) -/
def noriK2t (H : HashPair) (n : Nat) : Py (List Nat) := noriK2tLoop H n (List.range 15)

/-! ### `trice.py` -/

/-- trice.py:17-42 for six points a side; `zip` interleaves the two sides. -/
def triceT2k (H : HashPair) (us them : List Nat) : Nat :=
  let xs := (us.zip them).flatMap fun p => [p.1, p.2]
  let c := countChequers xs
  if c = 0 then 0
  else if c = 1 then 1 + H.hash (false :: unary xs) c
  else triceD (c - 1) 7 ^ 2 + H.hash (false :: unary xs) c

end Bglib
