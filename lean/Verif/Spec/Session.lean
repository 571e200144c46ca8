import Verif.Model.Session
/-
The words used in the statements about delivery (C31, C56, C57).
-/
namespace Bglib.Spec
open Bglib

variable {σ : Type}

/-- The calls a message should lead to: each subscriber with a method of that name, in order. -/
def wanted (h : Handlers σ) (name : Text) (got : Got) (subs : List Sub) : List Call :=
  (subs.filter fun x => (h x name).isSome).map fun x => (x, name, got)

/-- The handlers of this name return and leave the subscriptions and the connection alone. -/
def Quiet (h : Handlers σ) (name : Text) : Prop :=
  ∀ x f, h x name = some f → ∀ got s, (f got s).1 = .ok () ∧ (f got s).2.subs = s.subs ∧
    (f got s).2.active = s.active ∧ (f got s).2.termReq = s.termReq

/-- The handlers of this name return and do nothing to the subscriptions but add to them. -/
def Adding (h : Handlers σ) (name : Text) : Prop :=
  ∀ x f, h x name = some f → ∀ got s, (f got s).1 = .ok () ∧ ∃ l, (f got s).2.subs = s.subs ++ l

/-- A round in which a line arrives and the other threads leave subscriptions and connection alone. -/
def Calm (r : Round σ) : Prop :=
  (∃ nth t, r.recv = .got nth t) ∧
  ∀ s, (r.before s).subs = s.subs ∧ (r.before s).active = s.active ∧ (r.before s).termReq = s.termReq ∧
    (r.during s).subs = s.subs ∧ (r.during s).active = s.active ∧ (r.during s).termReq = s.termReq

/-- The line of a round. -/
def lineOf (r : Round σ) : Text :=
  match r.recv with
  | .got nth t => received nth t
  | .raised _ => []

/-- The calls a sequence of lines should lead to. -/
def wantedAll (h : Handlers σ) (order : Phase → List Text) (subs : List Sub) : Monster → List Text → List Call
  | _, [] => []
  | m, t :: ts =>
    (match (m.makeCookie order t).1 with
      | .ok c => wanted h c (.text t) subs
      | .error _ => []) ++ wantedAll h order subs (m.makeCookie order t).2 ts

/-- Nobody but `close` and the listener writes the flags: other threads keep the request to terminate. -/
def KeepsRequest (r : Round σ) : Prop :=
  ∀ s, s.termReq = true → (r.before s).termReq = true ∧ (r.during s).termReq = true

end Bglib.Spec
