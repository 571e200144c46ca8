import Verif.Spec.Threads
/-
Calls of handlers, over all ways in which threads take turns (C96).
-/
namespace Bglib.Spec
open Bglib

variable {ρ : Type}

/-- A handler of a subscriber was called with a message. -/
structure Called where
  subscriber : Sub
  name : Text
  got : Nat
  deriving DecidableEq, Repr

/-- A session whose calls are written down, the last one first. -/
abbrev Logged (ρ : Type) := List Called × ρ

def calls (w : World (Logged ρ)) : List Called := w.flags.rest.1

def writeCall (c : Called) (f : Flags (Logged ρ)) : Flags (Logged ρ) := { f with rest := (c :: f.rest.1, f.rest.2) }

/-- The handlers, each of which begins with writing down that it was called. -/
def logged (h : HandlersP (Logged ρ)) : HandlersP (Logged ρ) := fun x name =>
  (h x name).map fun p got => .flags (writeCall ⟨x, name, got⟩) fun _ => p got

/-- Neither writes down calls nor takes back the request to terminate. -/
def Leaves (f : Flags (Logged ρ) → Flags (Logged ρ)) : Prop :=
  ∀ s, (f s).rest.1 = s.rest.1 ∧ (s.termReq = true → (f s).termReq = true)

/-- What threads of the application may run: as `Client`, but they write down no calls. -/
inductive Unwriting : Prog (Logged ρ) → Prop where
  | ret (v : Nat) : Unwriting (.ret v)
  | raise (e : PyErr) : Unwriting (.raise e)
  | spin : Unwriting .spin
  | flags (f k) : Leaves f → (∀ s, Unwriting (k s)) → Unwriting (.flags f k)
  | seq (p k) : Unwriting p → (∀ v, Unwriting (k v)) → Unwriting (.seq p k)
  | tryFinally (p q) : Unwriting p → Unwriting q → Unwriting (.tryFinally p q)
  | tryExcept (p h) : Unwriting p → (∀ e, Unwriting (h e)) → Unwriting (.tryExcept p h)
  | isActive : Unwriting isActiveP
  | close : Unwriting closeP
  | sendLine (w) : Unwriting (sendLineP w)
  | opens : Unwriting openP
  | register (xs) : Unwriting (registerP xs)
  | unregister (xs) : Unwriting (unregisterP xs)

/-- A thread at its start: application code, or a listener with any handlers. -/
inductive Begins : Thread (Logged ρ) → Prop where
  | client (p : Prog (Logged ρ)) : Unwriting p → Begins ⟨p, []⟩
  | listener (h : HandlersP (Logged ρ)) (next recv fuel) : Leaves next →
      (∀ x n p, h x n = some p → ∀ got, Client (p got)) → Begins ⟨listenerP (logged h) next recv fuel, []⟩

/-- A world from which threads start. -/
def Fresh (w : World (Logged ρ)) : Prop := w.lock = .free ∧ ∀ t, Begins (w.threads t)

/-- A world that comes about from another when threads take turns in any way. -/
inductive Later : World (Logged ρ) → World (Logged ρ) → Prop where
  | refl (w) : Later w w
  | step (w w' w'' : World (Logged ρ)) (t : Nat) : Later w w' → w'.step t = some w'' → Later w w''

/-! ### Deliveries (C97) -/

/-- Handlers that leave the list of subscribers alone. -/
inductive Modest : Prog (Logged ρ) → Prop where
  | ret (v : Nat) : Modest (.ret v)
  | raise (e : PyErr) : Modest (.raise e)
  | spin : Modest .spin
  | flags (f k) : (∀ s, (f s).rest.1 = s.rest.1) → (∀ s, Modest (k s)) → Modest (.flags f k)
  | seq (p k) : Modest p → (∀ v, Modest (k v)) → Modest (.seq p k)
  | tryFinally (p q) : Modest p → Modest q → Modest (.tryFinally p q)
  | tryExcept (p h) : Modest p → (∀ e, Modest (h e)) → Modest (.tryExcept p h)
  | isActive : Modest isActiveP
  | close : Modest closeP
  | sendLine (w) : Modest (sendLineP w)
  | opens : Modest openP

/-- The calls due for a message, in their order. -/
def due (h : HandlersP (Logged ρ)) (name : Text) (got : Nat) (subs : List Sub) : List Called :=
  (subs.filter fun x => (h x name).isSome).map fun x => ⟨x, name, got⟩

/-- Thread `t` is at the beginning of a delivery, called from `st`. -/
def Delivers (w : World (Logged ρ)) (t : Nat) (h : HandlersP (Logged ρ)) (name : Text) (got : Nat) (st : List (Frame (Logged ρ))) : Prop :=
  ∃ fuel, w.subs.length < fuel ∧ w.threads t = ⟨deliverP (logged h) name got fuel 0, .fin unlock :: st⟩

/-- Its delivery is over, with this outcome. -/
def Delivered (w : World (Logged ρ)) (t : Nat) (st : List (Frame (Logged ρ))) (o : Py Nat) : Prop :=
  w.threads t = ⟨match o with | .ok v => .ret v | .error e => .raise e, .fin unlock :: st⟩

/-- Threads take turns in any way until the delivery is over. -/
inductive During (t : Nat) (st : List (Frame (Logged ρ))) : World (Logged ρ) → World (Logged ρ) → Prop where
  | refl (w) : During t st w w
  | step (w w' w'' : World (Logged ρ)) (u : Nat) : During t st w w' → (∀ o, ¬ Delivered w' t st o) → w'.step u = some w'' →
      During t st w w''

end Bglib.Spec
