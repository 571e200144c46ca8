import Verif.Spec.Session
import Verif.Lemmas.Deliver
/-
C31: delivery of messages to subscribers; C56, C57: closing and reopening a session.
-/
namespace Bglib
open Spec

variable {σ : Type}

/-- **C31** (the part that holds): if the handlers return and leave the subscriptions alone, each
subscriber with a method for the message is called exactly once, in the order of registration. -/
theorem C31_quiet_partial (h : Handlers σ) (name : Text) (hq : Quiet h name) (got : Got) (s : Sess σ)
    (ht : s.termReq = false) (fuel : Nat) (hf : s.subs.length < fuel) :
    (dispatch h fuel name got s).result = .ok () ∧
    (dispatch h fuel name got s).sess.subs = s.subs ∧
    (dispatch h fuel name got s).calls = wanted h name got s.subs := by
  unfold dispatch
  rw [ht]
  obtain ⟨h1, h2, _, _, h3⟩ := deliver_quiet h name got hq fuel 0 s [] (by omega)
  exact ⟨h1, h2, by simpa using h3⟩

private theorem deliver_adding (h : Handlers σ) (name : Text) (got : Got) (hq : Adding h name) :
    ∀ (fuel i : Nat) (s : Sess σ) (calls : List Call), (deliver h name got fuel i s calls).result = .ok () →
      (∃ l, (deliver h name got fuel i s calls).sess.subs = s.subs ++ l) ∧
      (deliver h name got fuel i s calls).calls =
        calls ++ wanted h name got ((deliver h name got fuel i s calls).sess.subs.drop i) := by
  intro fuel
  induction fuel with
  | zero => intro i s calls hr; simp [deliver] at hr
  | succ fuel ih =>
    intro i s calls hr
    unfold deliver at hr ⊢
    cases hx : s.subs[i]? with
    | none =>
      have : s.subs.drop i = [] := List.drop_eq_nil_of_le (by simpa using hx)
      simp [this, wanted]
    | some x =>
      rw [hx] at hr
      dsimp only at hr ⊢
      have hi : i < s.subs.length := (List.getElem?_eq_some_iff.1 hx).1
      cases hh : h x name with
      | none =>
        rw [hh] at hr
        dsimp only at hr ⊢
        obtain ⟨⟨l, h1⟩, h2⟩ := ih (i + 1) s calls hr
        refine ⟨⟨l, h1⟩, ?_⟩
        rw [h2, h1, subs_drop (i := i) (x := x) (by rw [List.getElem?_append_left hi, hx])]
        simp [wanted, hh]
      | some f =>
        rw [hh] at hr
        dsimp only at hr ⊢
        obtain ⟨h1, l, h2⟩ := hq x f hh got s
        rcases hfr : f got s with ⟨a, s'⟩
        rw [hfr] at h1 h2 hr
        dsimp only at h1 h2 hr ⊢
        subst h1
        dsimp only at hr ⊢
        obtain ⟨⟨l', h3⟩, h4⟩ := ih (i + 1) s' (calls ++ [(x, name, got)]) hr
        refine ⟨⟨l ++ l', by rw [h3, h2, List.append_assoc]⟩, ?_⟩
        rw [h4, h3, h2, subs_drop (l := s.subs ++ l ++ l') (i := i) (x := x)
          (by rw [List.append_assoc, List.getElem?_append_left hi, hx])]
        simp [wanted, hh]

/-- **C31**, handlers that register: everybody registered before is called once, in order; then the newly
registered are called with the same message, too. -/
theorem C31_adding_partial (h : Handlers σ) (name : Text) (hq : Adding h name) (got : Got) (s : Sess σ)
    (fuel : Nat) (hr : (dispatch h fuel name got s).result = .ok ()) :
    ∃ new, (dispatch h fuel name got s).sess.subs = s.subs ++ new ∧
      (dispatch h fuel name got s).calls = wanted h name got s.subs ++ wanted h name got new := by
  unfold dispatch at hr ⊢
  split at hr
  · simp at hr
  · next ht =>
    rw [if_neg ht]
    obtain ⟨⟨l, h1⟩, h2⟩ := deliver_adding h name got hq fuel 0 s [] hr
    refine ⟨l, h1, ?_⟩
    rw [h2, h1]
    simp [wanted]

/-- **C31**, a sequence of messages: while nobody interferes, every line received is delivered with its
cookie to everybody who has a method for it, line by line. -/
theorem C31_stream_partial (h : Handlers σ) (hq : ∀ name, Quiet h name) (order : Phase → List Text)
    (ho : ValidOrder order) (fuel : Nat) (rs : List (Round σ)) (hc : ∀ r ∈ rs, Calm r) (m : Monster)
    (hm : Reachable order m) (s : Sess σ) (ha : s.active = true) (ht : s.termReq = false)
    (hf : s.subs.length < fuel) :
    (listen h order fuel rs m s).ended = false ∧
    (listen h order fuel rs m s).calls = wantedAll h order s.subs m (rs.map lineOf) := by
  induction rs generalizing m s with
  | nil => exact ⟨rfl, rfl⟩
  | cons r rs ih =>
    obtain ⟨⟨nth, t, hr⟩, hk⟩ := hc r (by simp)
    have hl : lineOf r = received nth t := by simp [lineOf, hr]
    obtain ⟨c, m', s', hmk, hm', e1, e2, e3, e⟩ := listen_line h hq order ho fuel r rs nth t hr hk m hm s ha ht hf
    obtain ⟨i1, i2⟩ := ih (fun r hr => hc r (by simp [hr])) m' hm' s' e2 e3 (by rw [e1]; exact hf)
    rw [e]
    refine ⟨i1, ?_⟩
    simp only [Listened.after, i2, e1, List.map_cons, wantedAll, hl, hmk]

/-- Registering puts subscribers at the end; unregistering takes back the first registration of a subscriber and leaves
the others in their order; somebody who is not registered is refused. -/
theorem C31_unregister (s : Sess σ) (xs : List Sub) (x : Sub) :
    (s.register xs).subs = s.subs ++ xs ∧
    (∀ a b, s.subs = a ++ x :: b → x ∉ a → s.unregister [x] = (.ok (), { s with subs := a ++ b })) ∧
    (x ∉ s.subs → s.unregister [x] = (.error .valueError, s)) := by
  refine ⟨?_, fun a b h hx => ?_, fun h => ?_⟩
  · induction xs generalizing s with
    | nil => simp [Sess.register]
    | cons y ys ih => rw [Sess.register, ih]; simp
  · have e : (a ++ x :: b).erase x = a ++ b := by
      rw [List.erase_append_right _ hx, List.erase_cons_head]
    simp only [Sess.unregister, h, List.mem_append, List.mem_cons, true_or, or_true, if_true, e]
  · simp only [Sess.unregister, if_neg h]

example : (((Sess.new ()).register [0, 1, 0]).unregister [0]).2.subs = [1, 0] := by decide

/-- The handlers of the counterexamples: subscriber 0 unregisters itself / registers subscriber 1 / raises
at every message; 1 does nothing. -/
def leaving : Handlers Unit := fun x _ =>
  if x = 0 then some fun _ s => s.unregister [0] else if x = 1 then some fun _ s => (.ok (), s) else none

def inviting : Handlers Unit := fun x _ =>
  if x = 0 then some fun _ s => (.ok (), s.register [1]) else if x = 1 then some fun _ s => (.ok (), s) else none

def failing : Handlers Unit := fun x _ =>
  if x = 0 then some fun _ s => (.error .keyError, s) else if x = 1 then some fun _ s => (.ok (), s) else none

/-- **C31** is false: if a handler unregisters its subscriber the next one misses the message; somebody who
registers during the delivery gets a message from before; if a handler raises, those after it get neither
this nor any later message. -/
theorem C31_false :
    let s : Sess Unit := ⟨[0, 1], true, false, false, ()⟩
    let s0 : Sess Unit := ⟨[0], true, false, false, ()⟩
    let c := t!"FIBS_Empty"
    let r : Round Unit := ⟨id, id, .got 0 t!"\r\n"⟩
    (dispatch leaving 10 c (.text []) s).calls = [(0, c, .text [])] ∧
    (dispatch leaving 10 c (.text []) s).result = .ok () ∧
    (dispatch inviting 10 c (.text []) s0).calls = [(0, c, .text []), (1, c, .text [])] ∧
    (dispatch failing 10 c (.text []) s).calls = [(0, c, .text [])] ∧
    ∀ rs order, ValidOrder order → ∃ c, (listen failing order 10 (r :: rs) Monster.new s).calls =
      [(0, c, .text [])] := by
  refine ⟨by decide, by decide, by decide, by decide, ?_⟩
  intro rs order ho
  obtain ⟨m', hmk, _⟩ := makeCookie_spec Monster.new order [] ho new_inv
  refine ⟨answer Monster.new order [], ?_⟩
  unfold listen
  simp only [id, if_true, received, List.length_cons, List.length_nil, Nat.sub_self, List.take_zero]
  rw [hmk]
  simp [dispatch, deliver, failing, Listened.after, listenerExcept]

/-! ### C56, C57: closing -/

/-- **C56**: once the session is closed no handler is called any more, whatever arrives and whatever other
threads do. -/
theorem C56_silent (h : Handlers σ) (order : Phase → List Text) (fuel : Nat) (rs : List (Round σ))
    (hk : ∀ r ∈ rs, KeepsRequest r) (m : Monster) (s : Sess σ) (ht : s.termReq = true) :
    (listen h order fuel rs m s).calls = [] := by
  have hex : ∀ e (s : Sess σ), s.termReq = true → (listenerExcept h fuel e s).calls = [] := by
    intro e s hs
    unfold listenerExcept
    split <;> simp [dispatch, hs]
  cases rs with
  | nil => rfl
  | cons r rs =>
    have h1 := (hk r (by simp) s ht).1
    have h2 := (hk r (by simp) _ h1).2
    unfold listen
    split
    · split
      · exact hex _ _ h2
      · split
        · exact hex _ _ h2
        · dsimp only
          simp only [dispatch, h2, if_true]
          simp only [Listened.after, listenerExcept, List.append_nil]
    · rfl

/-- Closing while the listener waits for data. -/
def closing (σ : Type) (recv : Recv) : Round σ := ⟨id, Sess.close, recv⟩

/-- **C56** (the part that holds): if the session is closed while the listener waits, and the wait ends
with data or with one of the two expected exceptions, the listener ends and reports it. -/
theorem C56_reported_partial (h : Handlers σ) (order : Phase → List Text) (ho : ValidOrder order) (fuel : Nat)
    (rs : List (Round σ)) (m : Monster) (hm : Reachable order m) (s : Sess σ) (ha : s.active = true)
    (recv : Recv) (hr : recv = .raised .socketError ∨ recv = .raised .eofError ∨ ∃ n t, recv = .got n t) :
    (listen h order fuel (closing σ recv :: rs) m s).ended = true ∧
    (listen h order fuel (closing σ recv :: rs) m s).sess.terminated = true ∧
    (listen h order fuel (closing σ recv :: rs) m s).calls = [] := by
  unfold listen
  simp only [closing, id, ha, if_true]
  rcases hr with rfl | rfl | ⟨n, t, rfl⟩
  · simp [listenerExcept, dispatch, Sess.close]
  · simp [listenerExcept, dispatch, Sess.close]
  · obtain ⟨m', hmk, _⟩ := makeCookie_spec m order (received n t) ho (reachable_inv order ho m hm)
    dsimp only
    rw [hmk]
    simp [listenerExcept, dispatch, Sess.close, Listened.after]

/-- A subscriber that closes the session at every message. -/
def leaver : Handlers Unit := fun x _ => if x = 0 then some fun _ s => (.ok (), s.close) else none

/-- **C56** is false: when a handler closes the session the listener ends without setting `terminated`;
whoever waits for it waits forever. -/
theorem C56_false (order : Phase → List Text) (ho : ValidOrder order) (t : Text) (r : Round Unit)
    (hr : r.before = id) (rs : List (Round Unit)) :
    let s : Sess Unit := ⟨[0], true, false, false, ()⟩
    let l := listen leaver order 10 (⟨id, id, .got 1 t⟩ :: r :: rs) Monster.new s
    l.ended = true ∧ l.sess.active = false ∧ l.sess.terminated = false := by
  intro s l
  obtain ⟨m', hmk, _⟩ := makeCookie_spec Monster.new order (received 1 t) ho new_inv
  have : l = ⟨true, ⟨[0], false, true, false, ()⟩, [(0, answer Monster.new order (received 1 t), .text (received 1 t))]⟩ := by
    show listen leaver order 10 (⟨id, id, .got 1 t⟩ :: r :: rs) Monster.new s = _
    unfold listen
    simp only [id, s, if_true]
    rw [hmk]
    simp [dispatch, deliver, leaver, Sess.close, Listened.after, listen, hr]
  rw [this]
  simp

/-- **C57** is false: nothing clears the request to terminate.  After `close` and `open` no message is
delivered: the first one ends the listener. -/
theorem C57_false (h : Handlers σ) (order : Phase → List Text) (fuel : Nat) (rs : List (Round σ))
    (hk : ∀ r ∈ rs, KeepsRequest r) (m : Monster) (s : Sess σ) :
    s.close.open.active = true ∧ (listen h order fuel rs m s.close.open).calls = [] :=
  ⟨rfl, C56_silent h order fuel rs hk m _ rfl⟩

/-- **C57** (the part that holds): a session that was not closed stays open through any `open`. -/
theorem C57_partial (s : Sess σ) (ht : s.termReq = false) (h : Handlers σ) (name : Text) (hq : Quiet h name)
    (got : Got) (fuel : Nat) (hf : s.subs.length < fuel) :
    s.open.active = true ∧ (dispatch h fuel name got s.open).calls = wanted h name got s.subs :=
  ⟨rfl, (C31_quiet_partial h name hq got s.open ht fuel hf).2.2⟩

/-! ### Non-vacuity -/

/-- Two subscribers with methods for everything; the third has none. -/
def listeners : Handlers Unit := fun x _ => if x < 2 then some fun _ s => (.ok (), s) else none

theorem listeners_quiet (name : Text) : Quiet listeners name := by
  intro x f hf got s
  unfold listeners at hf
  split at hf
  · cases hf; exact ⟨rfl, rfl, rfl, rfl⟩
  · simp at hf

/-- C31_quiet_partial, C57_partial: there are quiet handlers that get something. -/
example : wanted listeners t!"FIBS_Board" (.text []) [1, 5, 0] =
    [(1, t!"FIBS_Board", .text []), (0, t!"FIBS_Board", .text [])] := by decide

/-- C31_adding_partial: a handler that registers. -/
example : Adding inviting t!"FIBS_Board" ∧
    (dispatch inviting 10 t!"FIBS_Board" (.text []) ⟨[0], true, false, false, ()⟩).result = .ok () := by
  refine ⟨?_, by decide⟩
  intro x f hf got s
  unfold inviting at hf
  split at hf
  · cases hf; exact ⟨rfl, [1], rfl⟩
  · split at hf
    · cases hf; exact ⟨rfl, [], by simp⟩
    · simp at hf

/-- C31_stream_partial: a calm round. -/
example : Calm (⟨id, id, .got 0 t!"3\r\n"⟩ : Round Unit) ∧
    lineOf (⟨id, id, .got 0 t!"3\r\n"⟩ : Round Unit) = t!"3" :=
  ⟨⟨⟨0, _, rfl⟩, fun _ => ⟨rfl, rfl, rfl, rfl, rfl, rfl⟩⟩, by decide⟩

/-- C56_silent, C57_false: rounds of other threads that close, open and register. -/
example : KeepsRequest (⟨fun s => s.close.open, fun s => s.register [3], .got 0 []⟩ : Round Unit) := by
  intro s _
  simp_all [Sess.close, Sess.open, Sess.register]

end Bglib
