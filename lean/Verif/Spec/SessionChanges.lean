import Verif.Spec.Session
/-
The words used in the statements about deliveries in which handlers change the subscriptions (C31).
-/
namespace Bglib.Spec
open Bglib

variable {σ : Type}

/-- The handlers of this name return, and unregister neither their own subscriber nor one that stands
before it.  They may unregister those behind it and register others. -/
def Sparing (h : Handlers σ) (name : Text) : Prop :=
  ∀ x f, h x name = some f → ∀ got s a b, s.subs = a ++ x :: b →
    (f got s).1 = .ok () ∧ ∃ b', (f got s).2.subs = a ++ x :: b'

/-- What registering and unregistering may make of the subscriptions, if `y` is not registered. -/
inductive ChangedBut (y : Sub) : List Sub → List Sub → Prop where
  | refl (l : List Sub) : ChangedBut y l l
  | add {l l' : List Sub} (x : Sub) : x ≠ y → ChangedBut y l l' → ChangedBut y l (l' ++ [x])
  | remove {l l' : List Sub} (x : Sub) : ChangedBut y l l' → ChangedBut y l (l'.erase x)

/-- The handlers of this name do not register `y`.  They may register and unregister all others, unregister
`y`, and raise. -/
def NeverAdds (y : Sub) (h : Handlers σ) (name : Text) : Prop :=
  ∀ x f, h x name = some f → ∀ got s, ChangedBut y s.subs (f got s).2.subs

/-- The handlers of this name unregister their own subscriber, once, and do nothing else to the
subscriptions. -/
def OneShot (h : Handlers σ) (name : Text) : Prop :=
  ∀ x f, h x name = some f → ∀ got s, x ∈ s.subs →
    (f got s).1 = .ok () ∧ (f got s).2.subs = s.subs.erase x

/-- Who is called if whoever is called makes the next one be passed over. -/
def everySecond (called : Sub → Bool) : List Sub → List Sub
  | [] => []
  | x :: r => if called x then x :: everySecond called r.tail else everySecond called r
termination_by l => l.length
decreasing_by all_goals simp_wf <;> omega

/-- Who is left if whoever is called leaves. -/
def passedOver (called : Sub → Bool) : List Sub → List Sub
  | [] => []
  | x :: r => if called x then r.take 1 ++ passedOver called r.tail else x :: passedOver called r
termination_by l => l.length
decreasing_by all_goals simp_wf <;> omega

end Bglib.Spec
