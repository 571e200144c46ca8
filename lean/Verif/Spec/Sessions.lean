import Verif.Model.Sessions
import Verif.Spec.Threads
/-
The words used in the statements about several sessions (C120).
-/
namespace Bglib.Spec
open Bglib Many

variable {ρ : Type}

/-- The beginning: nobody has the lock, and each thread is a listener or application code of its session. -/
def Opened (of : Nat → Nat) (w : World (Sessions ρ)) : Prop :=
  w.lock = .free ∧ ∀ t, ∃ p, Starting ⟨p, []⟩ ∧ w.threads t = ⟨aim (of t) p, []⟩

/-- The threads that take turns, one after the other, and what comes of it. -/
inductive InTurn : World (Sessions ρ) → List Nat → World (Sessions ρ) → Prop where
  | none (w) : InTurn w [] w
  | more (w w' w'' : World (Sessions ρ)) (ts : List Nat) (t : Nat) : InTurn w ts w' → w'.step t = some w'' →
      InTurn w (ts ++ [t]) w''

/-- What belongs to session `i`. -/
def ownOf (w : World (Sessions ρ)) (i : Nat) : Own := w.flags.rest.one i

/-- To the threads of session `i` the world is as `u`, which has one session only. -/
structure SeenAs (i : Nat) (u : World ρ) (w : World (Sessions ρ)) : Prop where
  own : ownOf w i = ⟨u.subs, u.flags.active, u.flags.termReq, u.flags.terminated⟩
  app : w.flags.rest.app = u.flags.rest
  lock : w.lock = u.lock

/-- The same, but threads of other sessions may take turns between, as long as they do not touch what all sessions share
(`app`). -/
inductive Unmixed (of : Nat → Nat) (i : Nat) : World (Sessions ρ) → List Nat → World (Sessions ρ) → Prop where
  | none (w) : Unmixed of i w [] w
  | more (w w' w'' : World (Sessions ρ)) (ts : List Nat) (t : Nat) : Unmixed of i w ts w' → w'.step t = some w'' →
      (of t ≠ i → w''.flags.rest.app = w'.flags.rest.app) → Unmixed of i w (ts ++ [t]) w''

/-- The lock if one knows of session `i` only: whoever else has it does not count. -/
def lockSeen (of : Nat → Nat) (i : Nat) : RLock → RLock
  | .free => .free
  | .held o n => if of o = i then .held o n else .free

end Bglib.Spec
