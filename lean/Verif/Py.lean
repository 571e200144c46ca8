/-
Python runtime notions used throughout the model: exceptions as values, and list/tuple indexing.
-/
namespace Bglib

/-- Exceptions the modelled code can raise.  `bareRaise` is the `raise` without an active exception of
`bglib/model/move.py:55` (Python 2 turns it into a `TypeError`); `diverges` marks a loop of the
code that never ends. -/
inductive PyErr where
  | assertion
  | valueError
  | typeError
  | indexError
  | keyError
  | nameError
  | attributeError
  | unboundLocal
  | bareRaise
  | decodeError
  | inconsistentData
  | notImplemented
  | overflow
  | zeroDivision
  | ioError
  | socketError
  | eofError
  | runtimeError
  | systemExit
  | diverges
deriving DecidableEq, Repr

abbrev Py := Except PyErr

instance {α : Type} [DecidableEq α] : DecidableEq (Py α) := fun a b =>
  match a, b with
  | .ok x, .ok y => if h : x = y then .isTrue (by rw [h]) else .isFalse (by intro e; cases e; exact h rfl)
  | .error x, .error y => if h : x = y then .isTrue (by rw [h]) else .isFalse (by intro e; cases e; exact h rfl)
  | .ok _, .error _ => .isFalse (by intro e; cases e)
  | .error _, .ok _ => .isFalse (by intro e; cases e)

/-- Position in a sequence of length `len` that a Python index denotes: negative indices count from
the end, anything outside is `none` (`IndexError`). -/
def pyIdx (len : Nat) (i : Int) : Option Nat :=
  if 0 ≤ i then (if i < len then some i.toNat else none)
  else if 0 ≤ i + len then some (i + len).toNat else none

/-- `l[i]` for a Python list or tuple. -/
def pyGet {α : Type} (l : List α) (i : Int) : Py α :=
  match pyIdx l.length i with
  | some k => match l[k]? with
    | some x => .ok x
    | none => .error .indexError
  | none => .error .indexError

/-- `l[i] = v` on a Python list. -/
def pySet {α : Type} (l : List α) (i : Int) (v : α) : Py (List α) :=
  match pyIdx l.length i with
  | some k => .ok (l.set k v)
  | none => .error .indexError

/-- `l[i] += d` on a Python list of integers. -/
def pyAdd (l : List Int) (i : Int) (d : Int) : Py (List Int) := do
  let x ← pyGet l i
  pySet l i (x + d)

theorem pyIdx_nat {len k : Nat} (h : k < len) : pyIdx len (k : Int) = some k := by
  unfold pyIdx; simp [h]

theorem pyGet_nat {α : Type} {l : List α} {k : Nat} (h : k < l.length) :
    pyGet l (k : Int) = .ok l[k] := by
  simp [pyGet, pyIdx_nat h, h]

theorem pySet_nat {α : Type} {l : List α} {k : Nat} (v : α) (h : k < l.length) :
    pySet l (k : Int) v = .ok (l.set k v) := by
  simp [pySet, pyIdx_nat h]

theorem pyAdd_nat {l : List Int} {k : Nat} (d : Int) (h : k < l.length) :
    pyAdd l (k : Int) d = .ok (l.set k (l[k] + d)) := by
  simp [pyAdd, pyGet_nat h, pySet_nat _ h, bind, Except.bind]

end Bglib
