import Verif.Model.Threads
/-
Model of several sessions at once: `bglib/protocol/session.py`.

The lock is an attribute of the class, session.py:37-38, so there is one for all sessions; `subscribers`, `_active`,
`_termination_requested` and `terminated` belong to each session, session.py:51-54 and 88-92.
-/
namespace Bglib.Many
open Bglib

/-- What belongs to one session. -/
structure Own where
  subs : List Sub
  active : Bool
  termReq : Bool
  terminated : Bool
deriving DecidableEq

/-- All sessions by their numbers, and everything else, which is shared. -/
structure Sessions (ρ : Type) where
  one : Nat → Own
  app : ρ

variable {ρ : Type}

/-- What a program of session `i` sees besides `subscribers`. -/
def Sessions.view (s : Sessions ρ) (i : Nat) : Flags ρ :=
  ⟨(s.one i).active, (s.one i).termReq, (s.one i).terminated, s.app⟩

/-- The sessions after a change of what session `i` sees. -/
def Sessions.change (s : Sessions ρ) (i : Nat) (f : Flags ρ) : Sessions ρ :=
  ⟨fun j => if j = i then ⟨(s.one i).subs, f.active, f.termReq, f.terminated⟩ else s.one j, f.rest⟩

/-- The sessions after a change of the subscribers of session `i`. -/
def Sessions.changeSubs (s : Sessions ρ) (i : Nat) (l : List Sub) : Sessions ρ :=
  ⟨fun j => if j = i then { s.one i with subs := l } else s.one j, s.app⟩

/-- A method run with session `i` for `self`: accesses to attributes are to those of session `i`, and `acquire` and
`release` to the one lock.  Simplification: handlers use the methods of their own session only. -/
def aim (i : Nat) : Prog ρ → Prog (Sessions ρ)
  | .ret v => .ret v
  | .raise e => .raise e
  | .spin => .spin
  | .subs f k => .flags (fun s => { s with rest := s.rest.changeSubs i (f (s.rest.one i).subs) }) fun s =>
      aim i (k (s.rest.one i).subs)
  | .flags f k => .flags (fun s => { s with rest := s.rest.change i (f (s.rest.view i)) }) fun s => aim i (k (s.rest.view i))
  | .acquire k => .acquire (aim i k)
  | .release k => .release (aim i k)
  | .seq p k => .seq (aim i p) fun v => aim i (k v)
  | .tryFinally b f => .tryFinally (aim i b) (aim i f)
  | .tryExcept b h => .tryExcept (aim i b) fun e => aim i (h e)

end Bglib.Many
