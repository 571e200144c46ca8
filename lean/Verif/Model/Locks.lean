import Verif.Py
/-
Model of the two kinds of locks of `bglib/protocol/session.py`: the one of all sessions, and one for each subscriber, which
`Subscriber` offers to its methods.

Of a thread is kept what it does with locks, along one run of it: data, results and exceptions are left out
(`Model/Threads` has them, for the lock of the sessions).
-/
namespace Bglib.Locks
open Bglib

/-- `Transport._lock`, session.py:38, and `Subscriber._lock` of subscriber `i`, session.py:80.  Both can be taken again by
the thread that has them: `threading.Condition()` makes an `RLock`. -/
inductive Lk where
  | session
  | subscriber (i : Nat)
  deriving DecidableEq, Repr

/-- What a thread does: anything, a method synchronized with the lock of the sessions (with the handlers in it if it is
`_dispatch`), or a method of subscriber `i` synchronized with its lock; and what it does then. -/
inductive Code where
  | done
  | other (next : Code)
  | session (body next : Code)
  | own (i : Nat) (body next : Code)
  deriving DecidableEq, Repr

/-- One step. -/
inductive Act where
  | take (l : Lk)
  | give (l : Lk)
  | other
  deriving DecidableEq, Repr

/-- `synchronized_with`, session.py:23-34: the steps of a call, with those of the body -/
def synchronized (l : Lk) (body : List Act) : List Act := .take l :: body ++ [.give l]

/-- The steps one after the other. -/
def Code.acts : Code → List Act
  | .done => []
  | .other n => .other :: n.acts
  | .session b n => synchronized .session b.acts ++ n.acts
  | .own i b n => synchronized (.subscriber i) b.acts ++ n.acts

/-- `nop`, session.py:83-85 -/
def nop (i : Nat) (next : Code) : Code := .own i .done next

/-- `send_line`, session.py:71-74 -/
def sendLine (next : Code) : Code := .session (.other .done) next

/-- `_dispatch` with what the handlers do, session.py:114-126 -/
def dispatched (handlers : Code) (next : Code) : Code := .session (.other handlers) next

/-- Who has a lock, how often, and what the threads are still to do. -/
structure State where
  held : Lk → Option (Nat × Nat)
  rest : Nat → List Act

/-- The beginning. -/
def State.start (c : Nat → Code) : State := ⟨fun _ => none, fun t => (c t).acts⟩

/-- A turn of thread `t`; `none` if it has to wait or has ended.  `release` of a lock of another thread raises: the thread
ends. -/
def State.step (s : State) (t : Nat) : Option State :=
  match s.rest t with
  | [] => none
  | .other :: r => some { s with rest := fun u => if u = t then r else s.rest u }
  | .take l :: r =>
    match s.held l with
    | none => some ⟨fun m => if m = l then some (t, 1) else s.held m, fun u => if u = t then r else s.rest u⟩
    | some (o, n) =>
      if o = t then some ⟨fun m => if m = l then some (t, n + 1) else s.held m, fun u => if u = t then r else s.rest u⟩
      else none
  | .give l :: r =>
    match s.held l with
    | none => some { s with rest := fun u => if u = t then [] else s.rest u }
    | some (o, n) =>
      if o = t then
        some ⟨fun m => if m = l then (if n ≤ 1 then none else some (t, n - 1)) else s.held m, fun u => if u = t then r else s.rest u⟩
      else some { s with rest := fun u => if u = t then [] else s.rest u }

end Bglib.Locks
