import Verif.Model.Locks
/-
The words used in the statements about the two kinds of locks (C122).
-/
namespace Bglib.Spec
open Bglib Locks

/-- All states that come about when the threads take turns in any way. -/
inductive Arises (c : Nat → Code) : State → Prop where
  | start : Arises c (.start c)
  | turn (s s' : State) (t : Nat) : Arises c s → s.step t = some s' → Arises c s'

/-- The lock of the sessions comes before those of the subscribers, and these in their order. -/
def lockRank : Lk → Nat
  | .session => 0
  | .subscriber i => i + 1

/-- Code run by a thread that has the locks `ls`: locks it does not have are taken in their order.  There are `n`
subscribers. -/
inductive InOrder (n : Nat) : List Lk → Code → Prop where
  | done (ls) : InOrder n ls .done
  | other (ls c) : InOrder n ls c → InOrder n ls (.other c)
  | session (ls b c) : (.session ∈ ls ∨ ls = []) → InOrder n (.session :: ls) b → InOrder n ls c → InOrder n ls (.session b c)
  | own (ls i b c) : i < n → (.subscriber i ∈ ls ∨ ∀ l ∈ ls, lockRank l < lockRank (.subscriber i)) →
      InOrder n (.subscriber i :: ls) b → InOrder n ls c → InOrder n ls (.own i b c)

/-- Code that calls synchronized methods of sessions, with any code in handlers, and of subscribers none but `nop`. -/
inductive NopOnly (n : Nat) : Code → Prop where
  | done : NopOnly n .done
  | other (c) : NopOnly n c → NopOnly n (.other c)
  | session (b c) : NopOnly n b → NopOnly n c → NopOnly n (.session b c)
  | nop (i c) : i < n → NopOnly n c → NopOnly n (nop i c)

/-- Thread `t` is inside a method synchronized with `l`: it is still to give it back more often than it takes it. -/
def Between (s : State) (t : Nat) (l : Lk) : Prop := (s.rest t).count (.take l) < (s.rest t).count (.give l)

/-- From one state to another with some number of turns. -/
inductive Reaches (s : State) : State → Nat → Prop where
  | here : Reaches s s 0
  | turn (s' s'' : State) (t k : Nat) : Reaches s s' k → s'.step t = some s'' → Reaches s s'' (k + 1)

/-- Thread `t` waits for thread `u`, which has the lock it needs next. -/
def Waits (s : State) (t u : Nat) : Prop := u ≠ t ∧ ∃ l r k, s.rest t = .take l :: r ∧ s.held l = some (u, k)

/-- Threads each of which waits for another of them. -/
def Circle (s : State) (C : List Nat) : Prop := C ≠ [] ∧ ∀ t ∈ C, ∃ u ∈ C, Waits s t u

/-- How many steps the first `n` threads have left. -/
def stepsLeft (s : State) : Nat → Nat
  | 0 => 0
  | n + 1 => stepsLeft s n + (s.rest n).length

end Bglib.Spec
