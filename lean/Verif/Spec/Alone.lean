import Verif.Spec.Threads
/-
What a call of a method comes to when its thread is not interrupted, and while it has the lock (C98).
-/
namespace Bglib.Spec
open Bglib

variable {σ : Type}

/-- A thread takes any number of turns, one after the other. -/
inductive ByItself (t : Nat) : World σ → World σ → Prop where
  | refl (w) : ByItself t w w
  | step (w w' w'' : World σ) : w.step t = some w' → ByItself t w' w'' → ByItself t w w''

/-- The session of a world, as in the model without threads. -/
def sessionOf (w : World σ) : Sess σ := ⟨w.subs, w.flags.active, w.flags.termReq, w.flags.terminated, w.flags.rest⟩

/-- Returning a value or raising. -/
def outcome : Py Nat → Prog σ
  | .ok v => .ret v
  | .error e => .raise e

/-- Thread `t` can take the lock. -/
def CanLock (w : World σ) (t : Nat) : Prop := w.lock = .free ∨ ∃ n, w.lock = .held t (n + 1)

/-- Run by a thread that is not interrupted, wherever it is called from, the program changes the session from `s` to `s'` and
has this outcome; nothing else is different afterwards, and the lock is given back. -/
def Alone (p : Prog σ) (s : Sess σ) (o : Py Nat) (s' : Sess σ) : Prop :=
  ∀ (w : World σ) (t : Nat) (st : List (Frame σ)), w.threads t = ⟨p, st⟩ → sessionOf w = s → CanLock w t →
    ∃ w', ByItself t w w' ∧ w'.threads t = ⟨outcome o, st⟩ ∧ sessionOf w' = s' ∧ w'.lock = w.lock ∧
      ∀ u, u ≠ t → w'.threads u = w.threads u

/-- The programs of the handlers do, alone, what handlers of the model without threads do; `num` are the numbers that
stand for what is received. -/
def SameHandlers (hp : HandlersP σ) (h : Handlers σ) (num : Got → Nat) : Prop :=
  ∀ x name, match h x name, hp x name with
    | none, none => True
    | some f, some p => ∀ got s, ∃ v, Alone (p (num got)) s ((f got s).1.map fun _ => v) (f got s).2
    | _, _ => False

/-- Thread `t` is inside a synchronized method, called from `st`, with its body to be run. -/
def Enters (w : World σ) (t : Nat) (body : Prog σ) (st : List (Frame σ)) : Prop := w.threads t = ⟨body, .fin unlock :: st⟩

/-- The body is over, with this outcome. -/
def Leaving (w : World σ) (t : Nat) (st : List (Frame σ)) (o : Py Nat) : Prop := w.threads t = ⟨outcome o, .fin unlock :: st⟩

/-- Threads take turns in any way until the body is over. -/
inductive Underway (t : Nat) (st : List (Frame σ)) : World σ → World σ → Prop where
  | refl (w) : Underway t st w w
  | step (w w' w'' : World σ) (u : Nat) : Underway t st w w' → (∀ o, ¬ Leaving w' t st o) → w'.step u = some w'' →
      Underway t st w w''

end Bglib.Spec
