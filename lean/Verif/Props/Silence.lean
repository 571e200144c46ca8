import Verif.Lemmas.Silence
import Verif.Props.Threads
/-
C96: when a session was closed, no thread calls a handler any more.
-/
namespace Bglib
open Spec

variable {ρ : Type}

/-- However threads take turns: once termination is requested and nobody is inside a synchronized method, no handler is
ever called again.  Missing: the rest of a delivery in which a handler closes the session (C96_false_handler). -/
theorem C96_silent_partial (w0 w w' : World (Logged ρ)) (h0 : Fresh w0) (h : Later w0 w) (ht : w.flags.termReq = true)
    (hl : w.lock = .free) (h' : Later w w') : calls w' = calls w := by
  have hr := later_runs h0 h
  have hs : ∀ u, (w.threads u).All Hushed := by
    intro u
    rcases later_shaped h (fun u => begins_shaped (h0.2 u)) u with hs | ⟨upper, lower, hst, _⟩
    · exact hushed_thread hs
    · obtain ⟨n, hn⟩ := C32_inside w hr u (by unfold Inside; rw [hst]; simp)
      rw [hl] at hn
      cases hn
  exact (later_hushed h' ht hs).2.1

/-- So it is when a thread gives back the lock after closing, if it did not have it before. -/
theorem C96_closed (w0 w w1 w' : World (Logged ρ)) (h0 : Fresh w0) (h : Later w0 w) (t : Nat) (ht : w.flags.termReq = true)
    (hc : ∃ k, (w.threads t).cur = .release k) (hl : w.lock = .held t 1) (h1 : w.step t = some w1) (h' : Later w1 w') :
    calls w' = calls w := by
  obtain ⟨k, hk⟩ := hc
  rcases hth : w.threads t with ⟨cur, st⟩
  rw [hth] at hk
  dsimp only at hk
  subst hk
  unfold World.step at h1
  rw [hth, hl] at h1
  simp only [RLock.release, if_true, Nat.le_refl, Option.some.injEq] at h1
  have e : w1.lock = .free ∧ w1.flags = w.flags := by rw [← h1]; exact ⟨rfl, rfl⟩
  have hw1 : Later w0 w1 := by
    refine .step _ w _ t h ?_
    unfold World.step
    rw [hth, hl]
    simp only [RLock.release, if_true, Nat.le_refl, Option.some.injEq]
    exact h1
  have := C96_silent_partial w0 w1 w' h0 hw1 (by rw [e.2]; exact ht) e.1 h'
  rw [this]
  unfold calls
  rw [e.2]

/-- A message that arrives after the request is not delivered: the listener sets `terminated`, gives back the lock and
ends. -/
theorem C96_refused (h : HandlersP (Logged ρ)) (fuel : Nat) (name : Text) (got : Nat) (w : World (Logged ρ)) (t : Nat)
    (st : List (Frame (Logged ρ))) (hc : w.threads t = ⟨dispatchP h fuel name got, st⟩) (hl : w.lock = .free)
    (ht : w.flags.termReq = true) :
    ∃ w', w.turns (List.replicate 7 t) = some w' ∧ w'.flags = { w.flags with terminated := true } ∧ w'.lock = .free ∧
      w'.threads t = ⟨.raise .systemExit, st⟩ ∧ w'.subs = w.subs := by
  obtain ⟨subs, flags, lock, threads⟩ := w
  obtain ⟨a, b, c, d⟩ := flags
  dsimp only at hc hl ht
  subst hl ht
  simp [World.turns, World.step, World.put, List.replicate, hc, dispatchP, synchronized, RLock.acquire, RLock.release, unlock,
    Frame.receive]

/-! ### Witnesses -/

/-- Subscriber 0 closes the session, subscriber 1 does nothing. -/
def closer : HandlersP (Logged Unit) := fun x _ => if x = 0 then some fun _ => closeP else if x = 1 then some fun _ => .ret 0 else none

/-- A listener that has got one message, and a thread that closes the session. -/
def closingWorld (p : Prog (Logged Unit)) : World (Logged Unit) where
  subs := [0, 1]
  flags := ⟨true, false, false, ([], ())⟩
  lock := .free
  threads := fun t => if t = 0 then ⟨listenerP (logged closer) id (fun _ => .ok (t!"m", 5)) 10, []⟩ else if t = 1 then ⟨p, []⟩ else ⟨.ret 0, []⟩

theorem closing_fresh (p : Prog (Logged Unit)) (hp : Unwriting p) : Fresh (closingWorld p) := by
  refine ⟨rfl, fun t => ?_⟩
  unfold closingWorld
  dsimp only
  split
  · refine .listener closer _ _ _ leaves_id fun x n p hp got => ?_
    unfold closer at hp
    split at hp
    · cases hp; exact .close
    · split at hp
      · cases hp; exact .ret _
      · cases hp
  · split
    · exact .client _ hp
    · exact .client _ (.ret _)

theorem later_turns (w0 w w' : World (Logged ρ)) (h : Later w0 w) (ts : List Nat) (hs : w.turns ts = some w') : Later w0 w' := by
  induction ts generalizing w with
  | nil => simp only [World.turns, Option.some.injEq] at hs; rw [← hs]; exact h
  | cons t ts ih =>
    simp only [World.turns, Option.bind_eq_some_iff] at hs
    obtain ⟨w1, h1, h2⟩ := hs
    exact ih w1 (.step _ w w1 t h h1) h2

/-- What can be seen of a world. -/
def visible (w : World (Logged Unit)) : List Called × Bool × RLock := (calls w, w.flags.termReq, w.lock)

theorem seen_turns (w0 w : World (Logged Unit)) (hl : Later w0 w) (ts : List Nat) (a : List Called × Bool × RLock)
    (h : (w.turns ts).map visible = some a) : ∃ w', Later w0 w' ∧ w.turns ts = some w' ∧ visible w' = a := by
  cases e : w.turns ts with
  | none => rw [e] at h; cases h
  | some w' => rw [e] at h; exact ⟨w', later_turns _ _ _ hl _ e, rfl, Option.some.inj h⟩

/-- False when a handler closes the session: the next subscriber is called all the same. -/
theorem C96_false_handler : ∃ w0 w w' : World (Logged Unit), Fresh w0 ∧ Later w0 w ∧ Later w w' ∧ w.flags.termReq = true ∧
    calls w = [⟨0, t!"m", 5⟩] ∧ calls w' = [⟨1, t!"m", 5⟩, ⟨0, t!"m", 5⟩] := by
  obtain ⟨w, h1, e, h2⟩ := seen_turns _ _ (.refl (closingWorld (.ret 0))) (List.replicate 26 0) ([⟨0, t!"m", 5⟩], true, .held 0 1) (by decide +kernel)
  have h : (w.turns (List.replicate 4 0)).map visible = some ([⟨1, t!"m", 5⟩, ⟨0, t!"m", 5⟩], true, .held 0 1) := by
    have k : (((closingWorld (.ret 0)).turns (List.replicate 26 0)).bind fun w => w.turns (List.replicate 4 0)).map visible =
        some ([⟨1, t!"m", 5⟩, ⟨0, t!"m", 5⟩], true, .held 0 1) := by decide +kernel
    rw [e] at k
    exact k
  obtain ⟨w', h3, _, h4⟩ := seen_turns _ _ (.refl w) _ _ h
  exact ⟨_, w, w', closing_fresh _ (.ret 0), h1, h3, (Prod.mk.inj (Prod.mk.inj h2).2).1, (Prod.mk.inj h2).1, (Prod.mk.inj h4).1⟩

/-- Non-vacuity: the other thread closes the session; nobody is inside a synchronized method then (C96_silent_partial). -/
example : ∃ w0 w : World (Logged Unit), Fresh w0 ∧ Later w0 w ∧ w.flags.termReq = true ∧ w.lock = .free := by
  obtain ⟨w, h1, _, h2⟩ := seen_turns _ _ (.refl (closingWorld closeP)) (List.replicate 6 1) ([], true, .free) (by decide +kernel)
  exact ⟨_, w, closing_fresh _ .close, h1, (Prod.mk.inj (Prod.mk.inj h2).2).1, (Prod.mk.inj (Prod.mk.inj h2).2).2⟩

/-- Non-vacuity: the listener with a message after the request (C96_refused). -/
example : ∃ w : World (Logged Unit), w.threads 0 = ⟨dispatchP closer 10 t!"m" 5, []⟩ ∧ w.lock = .free ∧ w.flags.termReq = true :=
  ⟨⟨[0], ⟨false, true, false, ([], ())⟩, .free, fun _ => ⟨dispatchP closer 10 t!"m" 5, []⟩⟩, rfl, rfl, rfl⟩

/-- Non-vacuity: a thread that has closed the session is about to give back the lock (C96_closed). -/
example : ∃ w0 w : World (Logged Unit), Fresh w0 ∧ Later w0 w ∧ w.flags.termReq = true ∧ w.lock = .held 1 1 := by
  obtain ⟨w, h1, _, h2⟩ := seen_turns _ _ (.refl (closingWorld closeP)) (List.replicate 4 1) ([], true, .held 1 1) (by decide +kernel)
  exact ⟨_, w, closing_fresh _ .close, h1, (Prod.mk.inj (Prod.mk.inj h2).2).1, (Prod.mk.inj (Prod.mk.inj h2).2).2⟩

end Bglib
