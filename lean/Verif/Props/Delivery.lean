import Verif.Lemmas.Delivery
import Verif.Props.Silence
/-
C97: a message is delivered to all subscribers, whatever other threads do meanwhile.
-/
namespace Bglib
open Spec

variable {ρ : Type}

/-- However threads take turns meanwhile: a delivery that ends without an exception has called exactly the handlers of the
subscribers at its beginning, each once and in their order.  Missing: handlers that register or unregister, and that
raise. -/
theorem C97_all_partial (h : HandlersP (Logged ρ)) (hh : ∀ x n p, h x n = some p → ∀ got, Modest (p got)) (name : Text) (got : Nat)
    (w0 w w' : World (Logged ρ)) (h0 : Fresh w0) (hl : Later w0 w) (t : Nat) (st : List (Frame (Logged ρ)))
    (hb : Delivers w t h name got st) (hd : During t st w w') (v : Nat) (he : Delivered w' t st (.ok v)) :
    calls w' = (due h name got w.subs).reverse ++ calls w := by
  cases during_phase hh h0 hl hb hd with
  | over v' hd' hc => exact hc
  | failed i e _ hd' hc => rw [Delivered, hd'] at he; cases he
  | next fuel i _ hlt hle ht hc =>
    rw [Delivered, ht] at he
    cases fuel with
    | zero => omega
    | succ fuel => simp [deliverP] at he
  | call fuel i x p _ _ _ _ ht hc => rw [Delivered, ht] at he; cases he
  | begin fuel i x p _ _ _ _ ht hc => rw [Delivered, ht] at he; cases he
  | inside fuel i upper _ _ _ hst _ _ hc =>
    rw [he] at hst
    have := congrArg List.length hst
    simp at this
    omega

/-- At any time of it, also if it ends with an exception, the handlers of the first of these subscribers were called, and
nothing else was. -/
theorem C97_meanwhile (h : HandlersP (Logged ρ)) (hh : ∀ x n p, h x n = some p → ∀ got, Modest (p got)) (name : Text) (got : Nat)
    (w0 w w' : World (Logged ρ)) (h0 : Fresh w0) (hl : Later w0 w) (t : Nat) (st : List (Frame (Logged ρ)))
    (hb : Delivers w t h name got st) (hd : During t st w w') :
    ∃ i ≤ w.subs.length, calls w' = (due h name got (w.subs.take i)).reverse ++ calls w := by
  cases during_phase hh h0 hl hb hd with
  | over v' hd' hc => exact ⟨_, Nat.le_refl _, by rw [List.take_length]; exact hc⟩
  | failed i e hi hd' hc => exact ⟨i, hi, hc⟩
  | next fuel i _ hlt hle ht hc => exact ⟨i, hle, hc⟩
  | call fuel i x p _ _ hx _ ht hc => exact ⟨i, Nat.le_of_lt (List.getElem?_eq_some_iff.1 hx).1, hc⟩
  | begin fuel i x p _ _ hx _ ht hc => exact ⟨i, Nat.le_of_lt (List.getElem?_eq_some_iff.1 hx).1, hc⟩
  | inside fuel i upper _ _ hi hst _ _ hc => exact ⟨i + 1, hi, hc⟩

/-- A thread that is to dispatch a message while no termination is requested begins such a delivery with its third turn. -/
theorem C97_begins (h : HandlersP (Logged ρ)) (name : Text) (got fuel : Nat) (w : World (Logged ρ)) (t : Nat) (st : List (Frame (Logged ρ)))
    (hc : w.threads t = ⟨dispatchP (logged h) fuel name got, st⟩) (hl : w.lock = .free) (ht : w.flags.termReq = false)
    (hf : w.subs.length < fuel) :
    ∃ w', w.turns (List.replicate 3 t) = some w' ∧ Delivers w' t h name got st ∧ w'.subs = w.subs ∧ w'.flags = w.flags := by
  obtain ⟨subs, flags, lock, threads⟩ := w
  obtain ⟨a, b, c, d⟩ := flags
  dsimp only at hc hl ht hf
  subst hl ht
  simp only [World.turns, World.step, World.put, List.replicate, hc, dispatchP, synchronized, RLock.acquire, Option.bind_some,
    if_true, Bool.false_eq_true, if_false, id]
  exact ⟨_, rfl, ⟨fuel, hf, by simp⟩, rfl, rfl⟩

/-! ### Witnesses -/

/-- Subscriber 0 raises, subscriber 1 does nothing. -/
def raiser : HandlersP (Logged Unit) := fun x _ =>
  if x = 0 then some fun _ => .raise .keyError else if x = 1 then some fun _ => .ret 0 else none

/-- A listener with these handlers that has got a message. -/
def listening (h : HandlersP (Logged Unit)) : World (Logged Unit) where
  subs := [0, 1]
  flags := ⟨true, false, false, ([], ())⟩
  lock := .free
  threads := fun t => if t = 0 then ⟨listenerP (logged h) id (fun _ => .ok (t!"m", 5)) 10, []⟩ else ⟨.ret 0, []⟩

theorem listening_fresh (h : HandlersP (Logged Unit)) (hh : ∀ x n p, h x n = some p → ∀ got, Client (p got)) : Fresh (listening h) := by
  refine ⟨rfl, fun t => ?_⟩
  unfold listening
  dsimp only
  split
  · exact .listener h _ _ _ leaves_id hh
  · exact .client _ (.ret _)

theorem raiser_client (x : Sub) (n : Text) (p : Nat → Prog (Logged Unit)) (hp : raiser x n = some p) (got : Nat) : Modest (p got) ∧ Client (p got) := by
  unfold raiser at hp
  split at hp
  · cases hp; exact ⟨.raise _, .raise _⟩
  · split at hp
    · cases hp; exact ⟨.ret _, .ret _⟩
    · cases hp

/-- False if a handler raises: the subscribers behind it are not called. -/
theorem C97_false_raise : ∃ (w0 w w' : World (Logged Unit)) (h : HandlersP (Logged Unit)) (st : List (Frame (Logged Unit))),
    Fresh w0 ∧ Later w0 w ∧ Delivers w 0 h t!"m" 5 st ∧ During 0 st w w' ∧ Delivered w' 0 st (.error .keyError) ∧ w.subs = [0, 1] ∧
    (h 1 t!"m").isSome = true ∧ calls w = [] ∧ calls w' = [⟨0, t!"m", 5⟩] := by
  refine ⟨listening raiser, _, _, raiser, _, listening_fresh _ fun x n p hp got => (raiser_client x n p hp got).2,
    later_turns _ _ _ (.refl _) (List.replicate 15 0) rfl, ⟨9, by decide, rfl⟩,
    .step _ _ _ 0 (.step _ _ _ 0 (.step _ _ _ 0 (.step _ _ _ 0 (.refl _) ?_ rfl) ?_ rfl) ?_ rfl) ?_ rfl, rfl, rfl, rfl, rfl, rfl⟩
  · intro o ho
    have := congrArg Thread.cur ho
    cases o <;> cases this
  · intro o ho
    have := congrArg Thread.cur ho
    cases o <;> cases this
  · intro o ho
    have := congrArg Thread.cur ho
    cases o <;> cases this
  · intro o ho
    have := congrArg (fun t => t.stack.length) ho
    exact absurd (show 5 = 4 from this) (by decide)

/-- Subscribers 0 and 1 do nothing. -/
def quietOnes : HandlersP (Logged Unit) := fun x _ => if x ≤ 1 then some fun _ => .ret 0 else none

/-- Non-vacuity: a delivery that ends without an exception. -/
example : ∃ (w0 w w' : World (Logged Unit)) (st : List (Frame (Logged Unit))), Fresh w0 ∧ Later w0 w ∧ Delivers w 0 quietOnes t!"m" 5 st ∧
    During 0 st w w' ∧ Delivered w' 0 st (.ok 0) := by
  refine ⟨listening quietOnes, _, _, _, listening_fresh _ fun x n p hp got => ?_,
    later_turns _ _ _ (.refl _) (List.replicate 15 0) rfl, ⟨9, by decide, rfl⟩,
    .step _ _ _ 0 (.step _ _ _ 0 (.step _ _ _ 0 (.step _ _ _ 0 (.step _ _ _ 0 (.step _ _ _ 0 (.step _ _ _ 0 (.step _ _ _ 0 (.step _ _ _ 0 (.refl _)
    ?_ rfl) ?_ rfl) ?_ rfl) ?_ rfl) ?_ rfl) ?_ rfl) ?_ rfl) ?_ rfl) ?_ rfl, rfl⟩
  · unfold quietOnes at hp
    split at hp
    · cases hp; exact .ret _
    · cases hp
  all_goals
    intro o ho
    first
    | exact absurd (show 5 = 4 from congrArg (fun t => t.stack.length) ho) (by decide)
    | (have := congrArg Thread.cur ho; cases o <;> cases this)

end Bglib
