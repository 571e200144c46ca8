import Verif.Lemmas.Threads
/-
C32: the lock of a session, over all ways in which threads take turns.
-/
namespace Bglib
open Spec

variable {σ : Type}

/-- **C32**: a thread inside a synchronized method has the lock. -/
theorem C32_inside (w : World σ) (h : Runs w) (t : Nat) (ht : Inside w t) : Holds w t := by
  obtain ⟨r, h1, h2⟩ := (runs_inv w h).typed t
  have := styped_mem _ _ h2 ht
  have := h1.le
  exact depth_pos _ _ (by omega)

/-- **C32**: never are two threads inside synchronized methods. -/
theorem C32_exclusive (w : World σ) (h : Runs w) (t u : Nat) (ht : Inside w t) (hu : Inside w u) : t = u := by
  obtain ⟨n, h1⟩ := C32_inside w h t ht
  obtain ⟨m, h2⟩ := C32_inside w h u hu
  rw [h1] at h2
  cases h2
  rfl

/-- **C32**: the list of subscribers is read and written only by the thread that has the lock. -/
theorem C32_guarded (w : World σ) (h : Runs w) (t : Nat) (ht : Touching w t) : Holds w t := by
  obtain ⟨r, h1, h2⟩ := (runs_inv w h).typed t
  obtain ⟨f, k, hc⟩ := ht
  rw [hc] at h1
  apply depth_pos
  generalize w.lock.depth t = d at h1
  cases h1
  omega

/-- **C32**: while a thread is inside a synchronized method no other thread changes the subscribers. -/
theorem C32_frozen (w w' : World σ) (h : Runs w) (t u : Nat) (ht : Inside w t) (hne : u ≠ t)
    (hs : w.step u = some w') : w'.subs = w.subs := by
  have hn : ¬ Touching w u := by
    intro hu
    obtain ⟨n, h1⟩ := C32_inside w h t ht
    obtain ⟨m, h2⟩ := C32_guarded w h u hu
    rw [h1] at h2
    cases h2
    exact hne rfl
  unfold World.step at hs
  rcases hth : w.threads u with ⟨cur, st⟩
  rw [hth] at hs
  cases cur with
  | subs f k => exact absurd ⟨f, k, by rw [hth]⟩ hn
  | ret v => cases st <;> simp at hs; subst hs; rfl
  | raise v => cases st <;> simp at hs; subst hs; rfl
  | spin => simp at hs; subst hs; rfl
  | flags f k => simp at hs; subst hs; rfl
  | acquire k => dsimp only at hs; split at hs <;> simp at hs; subst hs; rfl
  | release k => dsimp only at hs; split at hs <;> simp at hs <;> subst hs <;> rfl
  | seq p k => simp at hs; subst hs; rfl
  | tryFinally p q => simp at hs; subst hs; rfl
  | tryExcept p q => simp at hs; subst hs; rfl

/-- **C32**: the lock is given back on every path: a thread that has ended, by returning or by an
exception, does not have it. -/
theorem C32_released (w : World σ) (h : Runs w) (t : Nat) (ht : Ended w t) : ¬ Holds w t := by
  rintro ⟨n, hl⟩
  obtain ⟨r, h1, h2⟩ := (runs_inv w h).typed t
  have hp := (runs_inv w h).pos t n hl
  rw [hl] at h1
  simp only [RLock.depth, if_true] at h1
  rw [ht.1] at h2
  cases h2
  rcases ht.2 with ⟨v, hc⟩ | ⟨e, hc⟩ <;> (rw [hc] at h1; cases h1; omega)

/-- **C32**: `release` is never called by a thread without the lock (no `RuntimeError`). -/
theorem C32_release_owned (w : World σ) (h : Runs w) (t : Nat) (k : Prog σ)
    (hc : (w.threads t).cur = .release k) : Holds w t := by
  obtain ⟨r, h1, h2⟩ := (runs_inv w h).typed t
  rw [hc] at h1
  apply depth_pos
  generalize w.lock.depth t = d at h1
  cases h1
  omega

/-- **C32**: a thread that has not ended can go on, unless it waits for the lock and another thread has
it. -/
theorem C32_waits (w : World σ) (t : Nat) (he : ¬ Ended w t) (hs : w.step t = none) :
    Waiting w t ∧ ∃ u, u ≠ t ∧ Holds w u := by
  have hs' := hs
  unfold World.step at hs
  rcases hth : w.threads t with ⟨cur, st⟩
  rw [hth] at hs
  cases cur with
  | ret v =>
    cases st with
    | nil => exact absurd ⟨by rw [hth], Or.inl ⟨v, by rw [hth]⟩⟩ he
    | cons f st => simp at hs
  | raise e =>
    cases st with
    | nil => exact absurd ⟨by rw [hth], Or.inr ⟨e, by rw [hth]⟩⟩ he
    | cons f st => simp at hs
  | acquire k =>
    refine ⟨⟨⟨k, by rw [hth]⟩, hs'⟩, ?_⟩
    dsimp only at hs
    unfold RLock.acquire at hs
    cases hl : w.lock with
    | free => rw [hl] at hs; simp at hs
    | held o n =>
      rw [hl] at hs
      dsimp only at hs
      by_cases ho : o = t
      · simp [ho] at hs
      · exact ⟨o, ho, n, hl⟩
  | release k => dsimp only at hs; split at hs <;> simp at hs
  | _ => simp at hs

/-- **C32**: no deadlock on the lock: if some thread has not ended, some thread can go on. -/
theorem C32_progress (w : World σ) (h : Runs w) (t : Nat) (he : ¬ Ended w t) : ∃ u, (w.step u).isSome = true := by
  cases hs : w.step t with
  | some w' => exact ⟨t, by rw [hs]; rfl⟩
  | none =>
    obtain ⟨_, u, _, hu⟩ := C32_waits w t he hs
    refine ⟨u, ?_⟩
    cases hs' : w.step u with
    | some w' => rfl
    | none =>
      exfalso
      have hne : ¬ Ended w u := fun hen => C32_released w h u hen hu
      obtain ⟨_, v, hv, hvh⟩ := C32_waits w u hne hs'
      obtain ⟨n, h1⟩ := hu
      obtain ⟨m, h2⟩ := hvh
      rw [h1] at h2
      cases h2
      exact hv rfl

/-! ### Non-vacuity -/

/-- Two threads registering subscribers, one unregistering somebody unknown, the others idle. -/
def busy : World Unit where
  subs := []
  flags := ⟨true, false, false, ()⟩
  lock := .free
  threads := fun t => if t = 0 then ⟨registerP [7], []⟩ else if t = 1 then ⟨unregisterP [8], []⟩
    else ⟨.ret 0, []⟩

theorem busy_runs : Runs busy := by
  refine .start _ rfl fun t => ?_
  unfold busy
  dsimp only
  split
  · exact .client _ (.register _)
  · split
    · exact .client _ (.unregister _)
    · exact .client _ (.ret _)

/-- The world after threads have taken turns. -/
def World.turns (w : World σ) : List Nat → Option (World σ)
  | [] => some w
  | t :: ts => (w.step t).bind fun w' => w'.turns ts

theorem runs_turns (w w' : World σ) (h : Runs w) (ts : List Nat) (hs : w.turns ts = some w') : Runs w' := by
  induction ts generalizing w with
  | nil => simp only [World.turns, Option.some.injEq] at hs; rw [← hs]; exact h
  | cons t ts ih =>
    simp only [World.turns, Option.bind_eq_some_iff] at hs
    obtain ⟨w1, h1, h2⟩ := hs
    exact ih w1 (.step w w1 t h h1) h2

/-- Thread 0 inside and touching, thread 1 waiting (C32_inside, C32_guarded, C32_frozen, C32_waits). -/
example : ∃ w : World Unit, Runs w ∧ Inside w 0 ∧ Touching w 0 ∧ Waiting w 1 := by
  have h : ∃ w, busy.turns [0, 0] = some w := ⟨_, rfl⟩
  obtain ⟨w, hw⟩ := h
  refine ⟨w, runs_turns _ _ busy_runs _ hw, ?_⟩
  simp only [World.turns, Option.bind_eq_some_iff, Option.some.injEq] at hw
  obtain ⟨a, ha, b, hb, rfl⟩ := hw
  cases ha
  cases hb
  exact ⟨List.mem_cons_self, ⟨_, _, rfl⟩, ⟨_, rfl⟩, rfl⟩

/-- Thread 1 ends with a `ValueError` and has given the lock back; thread 0 still gets its turn
(C32_released, C32_progress, C32_release_owned). -/
example : ∃ w w' : World Unit, Runs w ∧ (∃ k, (w.threads 1).cur = .release k) ∧ Runs w' ∧ Ended w' 1 ∧
    (w'.threads 1).cur = .raise .valueError ∧ ¬ Ended w' 0 := by
  have h : ∃ w, busy.turns [1, 1, 1, 1] = some w := ⟨_, rfl⟩
  have h' : ∃ w, busy.turns [1, 1, 1, 1, 1, 1] = some w := ⟨_, rfl⟩
  obtain ⟨w, hw⟩ := h
  obtain ⟨w', hw'⟩ := h'
  refine ⟨w, w', runs_turns _ _ busy_runs _ hw, ?_, runs_turns _ _ busy_runs _ hw', ?_⟩
  · simp only [World.turns, Option.bind_eq_some_iff, Option.some.injEq] at hw
    obtain ⟨_, ha, _, hb, _, hc, _, hd, rfl⟩ := hw
    cases ha; cases hb; cases hc; cases hd
    exact ⟨_, rfl⟩
  · simp only [World.turns, Option.bind_eq_some_iff, Option.some.injEq] at hw'
    obtain ⟨_, ha, _, hb, _, hc, _, hd, _, he, _, hf, rfl⟩ := hw'
    cases ha; cases hb; cases hc; cases hd; cases he; cases hf
    refine ⟨⟨rfl, Or.inr ⟨_, rfl⟩⟩, rfl, ?_⟩
    rintro ⟨_, ⟨v, h⟩ | ⟨e, h⟩⟩ <;> cases h

end Bglib
