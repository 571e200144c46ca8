import Verif.Model.Threads
/-
The words used in the statements about threads (C32).
-/
namespace Bglib.Spec
open Bglib

variable {σ : Type}

/-- What other code may run: anything that uses the session by its methods only, and neither the lock
nor `subscribers` directly.  In particular handlers and the threads of the application. -/
inductive Client : Prog σ → Prop where
  | ret (v : Nat) : Client (.ret v)
  | raise (e : PyErr) : Client (.raise e)
  | spin : Client .spin
  | flags (f k) : (∀ s, Client (k s)) → Client (.flags f k)
  | seq (p k) : Client p → (∀ v, Client (k v)) → Client (.seq p k)
  | tryFinally (p q) : Client p → Client q → Client (.tryFinally p q)
  | tryExcept (p h) : Client p → (∀ e, Client (h e)) → Client (.tryExcept p h)
  | isActive : Client isActiveP
  | close : Client closeP
  | sendLine (w) : Client (sendLineP w)
  | opens : Client openP
  | register (xs) : Client (registerP xs)
  | unregister (xs) : Client (unregisterP xs)

/-- A thread at its start: application code or the listener of a session with handlers. -/
inductive Starting : Thread σ → Prop where
  | client (p : Prog σ) : Client p → Starting ⟨p, []⟩
  | listener (h : HandlersP σ) (next recv fuel) :
      (∀ x n p, h x n = some p → ∀ got, Client (p got)) → Starting ⟨listenerP h next recv fuel, []⟩

/-- All worlds that come about when the threads take turns in any way. -/
inductive Runs : World σ → Prop where
  | start (w : World σ) : w.lock = .free → (∀ t, Starting (w.threads t)) → Runs w
  | step (w w' : World σ) (t : Nat) : Runs w → w.step t = some w' → Runs w'

/-- Thread `t` has the lock. -/
def Holds (w : World σ) (t : Nat) : Prop := ∃ n, w.lock = .held t n

/-- Thread `t` is inside a synchronized method: a release is waiting for it to finish. -/
def Inside (w : World σ) (t : Nat) : Prop := Frame.fin unlock ∈ (w.threads t).stack

/-- Thread `t` has ended, by returning or by an exception. -/
def Ended (w : World σ) (t : Nat) : Prop :=
  (w.threads t).stack = [] ∧ ((∃ v, (w.threads t).cur = .ret v) ∨ ∃ e, (w.threads t).cur = .raise e)

/-- Thread `t` is about to read or write `subscribers`. -/
def Touching (w : World σ) (t : Nat) : Prop := ∃ f k, (w.threads t).cur = .subs f k

/-- Thread `t` waits for the lock. -/
def Waiting (w : World σ) (t : Nat) : Prop := (∃ k, (w.threads t).cur = .acquire k) ∧ w.step t = none

end Bglib.Spec
