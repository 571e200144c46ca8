import Verif.Spec.Sessions
import Verif.Lemmas.Threads
/-
Threads of several sessions.
-/
namespace Bglib
open Spec Many

variable {ρ : Type}

theorem aim_typed (i : Nat) {p : Prog ρ} {n r : Nat} (h : Typed p n r) : Typed (aim i p) n r := by
  induction h with
  | ret v n => exact .ret v n
  | raise e n => exact .raise e n
  | spin n => exact .spin n
  | subs f k n _ ih => exact .flags _ _ _ fun s => ih _
  | flags f k n _ ih => exact .flags _ _ _ fun s => ih _
  | acquire b n _ ih => exact .acquire _ n ih
  | guarded b n _ ih => exact .guarded _ n ih
  | release n => exact .release n
  | seq p k n _ _ ih1 ih2 => exact .seq _ _ n ih1 ih2
  | tryFinally p q n _ _ ih1 ih2 => exact .tryFinally _ _ n ih1 ih2
  | tryExcept p h n _ _ ih1 ih2 => exact .tryExcept _ _ n ih1 ih2

theorem opened_inv {of : Nat → Nat} {w : World (Sessions ρ)} (h : Opened of w) : WInv w := by
  refine ⟨fun o n hl => (by rw [h.1] at hl; cases hl), fun t => ⟨0, ?_⟩⟩
  obtain ⟨p, hp, ht⟩ := h.2 t
  rw [h.1, ht]
  exact ⟨aim_typed _ (typed_starting _ hp).1, .nil⟩

theorem inTurn_inv {w w' : World (Sessions ρ)} {ts : List Nat} (h : InTurn w ts w') (hi : WInv w) : WInv w' := by
  induction h with
  | none => exact hi
  | more w' w'' ts t _ hs ih => exact step_inv _ _ _ ih hs

/-- A frame of session `i`. -/
def aimFrame (i : Nat) : Frame ρ → Frame (Sessions ρ)
  | .seq k => .seq fun v => aim i (k v)
  | .fin p => .fin (aim i p)
  | .except h => .except fun e => aim i (h e)
  | .resume o => .resume o

/-- A thread of session `i`. -/
def aimThread (i : Nat) (th : Thread ρ) : Thread (Sessions ρ) := ⟨aim i th.cur, th.stack.map (aimFrame i)⟩

theorem aim_receive (i : Nat) (f : Frame ρ) (o : Py Nat) (st : List (Frame ρ)) :
    (aimFrame i f).receive o (st.map (aimFrame i)) = aimThread i (f.receive o st) := by
  cases f with
  | seq k => cases o <;> rfl
  | fin p => rfl
  | except h => cases o <;> rfl
  | resume o' => cases o' <;> cases o <;> rfl

/-- A turn of a thread of session `i`: it stays one, and what belongs to other sessions stays as it is. -/
theorem aim_step {i : Nat} {w w' : World (Sessions ρ)} {t : Nat} {th : Thread ρ} (ht : w.threads t = aimThread i th)
    (hs : w.step t = some w') :
    (∃ th', w'.threads t = aimThread i th') ∧ (∀ u, u ≠ t → w'.threads u = w.threads u) ∧
      ∀ j, j ≠ i → ownOf w' j = ownOf w j := by
  obtain ⟨cur, st⟩ := th
  unfold World.step at hs
  rw [ht] at hs
  have put1 : ∀ th'' : Thread ρ, (w.put t (aimThread i th'')).threads t = aimThread i th'' := fun _ => if_pos rfl
  have put2 : ∀ (th'' : Thread (Sessions ρ)) u, u ≠ t → (w.put t th'').threads u = w.threads u := fun _ _ hu => if_neg hu
  cases cur with
  | ret v =>
    cases st with
    | nil => cases hs
    | cons f st =>
      have hs := (Option.some.inj hs).symm
      rw [aim_receive] at hs
      subst hs
      exact ⟨⟨_, put1 _⟩, put2 _, fun _ _ => rfl⟩
  | raise e =>
    cases st with
    | nil => cases hs
    | cons f st =>
      have hs := (Option.some.inj hs).symm
      rw [aim_receive] at hs
      subst hs
      exact ⟨⟨_, put1 _⟩, put2 _, fun _ _ => rfl⟩
  | spin =>
    have hs := (Option.some.inj hs).symm
    subst hs
    exact ⟨⟨⟨.spin, st⟩, put1 ⟨.spin, st⟩⟩, put2 _, fun _ _ => rfl⟩
  | subs f k =>
    have hs := (Option.some.inj hs).symm
    subst hs
    exact ⟨⟨⟨k _, st⟩, put1 ⟨k _, st⟩⟩, put2 _, fun j hj => if_neg hj⟩
  | flags f k =>
    have hs := (Option.some.inj hs).symm
    subst hs
    exact ⟨⟨⟨k _, st⟩, put1 ⟨k _, st⟩⟩, put2 _, fun j hj => if_neg hj⟩
  | acquire k =>
    dsimp only [aimThread, aim] at hs
    split at hs
    · have hs := (Option.some.inj hs).symm
      subst hs
      exact ⟨⟨⟨k, st⟩, put1 ⟨k, st⟩⟩, put2 _, fun _ _ => rfl⟩
    · cases hs
  | release k =>
    dsimp only [aimThread, aim] at hs
    split at hs
    · have hs := (Option.some.inj hs).symm
      subst hs
      exact ⟨⟨⟨k, st⟩, put1 ⟨k, st⟩⟩, put2 _, fun _ _ => rfl⟩
    · have hs := (Option.some.inj hs).symm
      subst hs
      exact ⟨⟨⟨.raise _, st⟩, put1 ⟨.raise _, st⟩⟩, put2 _, fun _ _ => rfl⟩
  | seq p k =>
    have hs := (Option.some.inj hs).symm
    subst hs
    exact ⟨⟨⟨p, .seq k :: st⟩, put1 ⟨p, .seq k :: st⟩⟩, put2 _, fun _ _ => rfl⟩
  | tryFinally p q =>
    have hs := (Option.some.inj hs).symm
    subst hs
    exact ⟨⟨⟨p, .fin q :: st⟩, put1 ⟨p, .fin q :: st⟩⟩, put2 _, fun _ _ => rfl⟩
  | tryExcept p h =>
    have hs := (Option.some.inj hs).symm
    subst hs
    exact ⟨⟨⟨p, .except h :: st⟩, put1 ⟨p, .except h :: st⟩⟩, put2 _, fun _ _ => rfl⟩

theorem inTurn_aim {of : Nat → Nat} {w w' : World (Sessions ρ)} {ts : List Nat} (h : InTurn w ts w')
    (ha : ∀ t, ∃ th, w.threads t = aimThread (of t) th) : (∀ t, ∃ th, w'.threads t = aimThread (of t) th) ∧
      ∀ i, (∀ t ∈ ts, of t ≠ i) → ownOf w' i = ownOf w i := by
  induction h with
  | none => exact ⟨ha, fun _ _ => rfl⟩
  | more w' w'' ts t _ hs ih =>
    obtain ⟨h1, h2⟩ := ih
    obtain ⟨th, ht⟩ := h1 t
    obtain ⟨g1, g2, g3⟩ := aim_step ht hs
    refine ⟨fun u => ?_, fun i hi => ?_⟩
    · by_cases hu : u = t
      · rw [hu]; exact g1
      · rw [g2 u hu]; exact h1 u
    · rw [g3 i (fun e => hi t (by simp) e.symm)]
      exact h2 i fun u hu => hi u (by simp [hu])

theorem opened_aim {of : Nat → Nat} {w : World (Sessions ρ)} (h : Opened of w) (t : Nat) :
    ∃ th, w.threads t = aimThread (of t) th := by
  obtain ⟨p, _, ht⟩ := h.2 t
  exact ⟨⟨p, []⟩, ht⟩

/-- A world of one session and the threads of session `i` of a world with many. -/
structure Along (of : Nat → Nat) (i : Nat) (u : World ρ) (w : World (Sessions ρ)) : Prop where
  seen : SeenAs i u w
  threads : ∀ t, of t = i → w.threads t = aimThread i (u.threads t)

theorem seen_view {i : Nat} {u : World ρ} {w : World (Sessions ρ)} (h : SeenAs i u w) : w.flags.rest.view i = u.flags := by
  have h1 := h.own
  simp only [ownOf] at h1
  simp only [Sessions.view, h1, h.app]

private theorem along_put {of : Nat → Nat} {i : Nat} {u : World ρ} {w : World (Sessions ρ)} (h : Along of i u w) (t : Nat)
    (th : Thread ρ) (s : Nat) (hs : of s = i) :
    (w.put t (aimThread i th)).threads s = aimThread i ((u.put t th).threads s) := by
  simp only [World.put]
  split
  · rfl
  · exact h.threads s hs

theorem along_step {of : Nat → Nat} {i : Nat} {u : World ρ} {w : World (Sessions ρ)} (h : Along of i u w) (t : Nat)
    (ht : of t = i) : (∃ u' w', u.step t = some u' ∧ w.step t = some w' ∧ Along of i u' w') ∨
      (u.step t = none ∧ w.step t = none) := by
  have e := h.threads t ht
  have hv := seen_view h.seen
  have ho := h.seen.own
  obtain ⟨cur, st, hu⟩ : ∃ cur st, u.threads t = ⟨cur, st⟩ := ⟨_, _, rfl⟩
  rw [hu] at e
  have keep : ∀ th, Along of i (u.put t th) (w.put t (aimThread i th)) := fun th =>
    ⟨⟨h.seen.own, h.seen.app, h.seen.lock⟩, along_put h t th⟩
  unfold World.step
  rw [hu, e]
  cases cur with
  | ret v =>
    cases st with
    | nil => exact .inr ⟨rfl, rfl⟩
    | cons f st =>
      refine .inl ⟨_, _, rfl, rfl, ?_⟩
      have := keep (f.receive (.ok v) st)
      rw [← aim_receive] at this
      exact this
  | raise x =>
    cases st with
    | nil => exact .inr ⟨rfl, rfl⟩
    | cons f st =>
      refine .inl ⟨_, _, rfl, rfl, ?_⟩
      have := keep (f.receive (.error x) st)
      rw [← aim_receive] at this
      exact this
  | spin => exact .inl ⟨_, _, rfl, rfl, keep ⟨.spin, st⟩⟩
  | subs f k =>
    have hs : (w.flags.rest.one i).subs = u.subs := by rw [show w.flags.rest.one i = _ from ho]
    have hk := keep ⟨k u.subs, st⟩
    refine .inl ⟨_, _, rfl, rfl, ⟨⟨?_, h.seen.app, h.seen.lock⟩, ?_⟩⟩
    · simp only [ownOf] at ho
      simp [ownOf, Sessions.changeSubs, World.put, ho]
    · rw [← hs] at hk ⊢
      exact hk.threads
  | flags f k =>
    have hk := keep ⟨k u.flags, st⟩
    refine .inl ⟨_, _, rfl, rfl, ⟨⟨?_, ?_, h.seen.lock⟩, ?_⟩⟩
    · simp only [ownOf] at ho
      simp [ownOf, Sessions.change, World.put, hv, ho]
    · simp only [Sessions.change, World.put, hv]
    · rw [← hv] at hk ⊢
      exact hk.threads
  | acquire k =>
    have hk := keep ⟨k, st⟩
    have hl := h.seen.lock
    cases ha : u.lock.acquire t with
    | some l =>
      refine .inl ⟨_, { w.put t (aimThread i ⟨k, st⟩) with lock := l }, rfl, ?_, ⟨⟨ho, h.seen.app, rfl⟩, hk.threads⟩⟩
      simp only [aimThread, aim, hl, ha]
    | none => exact .inr ⟨rfl, by simp only [aimThread, aim, hl, ha]⟩
  | release k =>
    have hl := h.seen.lock
    cases ha : u.lock.release t with
    | some l =>
      have hk := keep ⟨k, st⟩
      refine .inl ⟨_, { w.put t (aimThread i ⟨k, st⟩) with lock := l }, rfl, ?_, ⟨⟨ho, h.seen.app, rfl⟩, hk.threads⟩⟩
      simp only [aimThread, aim, hl, ha]
    | none =>
      refine .inl ⟨_, _, rfl, ?_, keep ⟨.raise .runtimeError, st⟩⟩
      simp only [aimThread, aim, hl, ha]
  | seq p k => exact .inl ⟨_, _, rfl, rfl, keep ⟨p, .seq k :: st⟩⟩
  | tryFinally p q => exact .inl ⟨_, _, rfl, rfl, keep ⟨p, .fin q :: st⟩⟩
  | tryExcept p g => exact .inl ⟨_, _, rfl, rfl, keep ⟨p, .except g :: st⟩⟩

/-! ### Turns of other sessions between -/

theorem lockSeen_acquire {of : Nat → Nat} {i t : Nat} {l l' : RLock} (ht : of t = i) (h : l.acquire t = some l') :
    (lockSeen of i l).acquire t = some (lockSeen of i l') := by
  cases l with
  | free =>
    cases h
    simp only [lockSeen, RLock.acquire, if_pos ht]
  | held o n =>
    simp only [RLock.acquire] at h
    split at h
    · rename_i ho
      subst ho
      cases h
      simp only [lockSeen, if_pos ht, RLock.acquire, if_true]
    · cases h

theorem lockSeen_release {of : Nat → Nat} {i t : Nat} (l : RLock) (ht : of t = i) :
    (lockSeen of i l).release t = (l.release t).map (lockSeen of i) := by
  cases l with
  | free => rfl
  | held o n =>
    by_cases ho : o = t
    · subst ho
      simp only [lockSeen, if_pos ht, RLock.release, if_true, Option.map]
      split
      · rfl
      · simp only [if_pos ht]
    · simp only [lockSeen]
      split
      · simp only [RLock.release, if_neg ho, Option.map]
      · simp only [RLock.release, if_neg ho, Option.map]

/-- The world with the lock as seen from session `i`. -/
def seenFrom (of : Nat → Nat) (i : Nat) (w : World (Sessions ρ)) : World (Sessions ρ) := { w with lock := lockSeen of i w.lock }

theorem step_seen {of : Nat → Nat} {i t : Nat} {w w' : World (Sessions ρ)} (ht : of t = i) (h : w.step t = some w') :
    (seenFrom of i w).step t = some (seenFrom of i w') := by
  obtain ⟨cur, st, hu⟩ : ∃ cur st, w.threads t = ⟨cur, st⟩ := ⟨_, _, rfl⟩
  have hv : (seenFrom of i w).threads t = ⟨cur, st⟩ := hu
  unfold World.step at h ⊢
  rw [hu] at h
  rw [hv]
  cases cur with
  | ret v =>
    cases st with
    | nil => cases h
    | cons f st => cases h; rfl
  | raise x =>
    cases st with
    | nil => cases h
    | cons f st => cases h; rfl
  | spin => cases h; rfl
  | subs f k => cases h; rfl
  | flags f k => cases h; rfl
  | acquire k =>
    dsimp only at h ⊢
    cases ha : w.lock.acquire t with
    | none => rw [ha] at h; cases h
    | some l =>
      rw [ha] at h
      cases h
      have := lockSeen_acquire ht ha
      simp only [seenFrom] at this ⊢
      rw [this]
      rfl
  | release k =>
    dsimp only at h ⊢
    have hr := lockSeen_release (i := i) w.lock ht
    cases ha : w.lock.release t with
    | none =>
      rw [ha] at h hr
      cases h
      simp only [seenFrom] at hr ⊢
      rw [hr]
      rfl
    | some l =>
      rw [ha] at h hr
      cases h
      simp only [seenFrom] at hr ⊢
      rw [hr]
      rfl
  | seq p k => cases h; rfl
  | tryFinally p q => cases h; rfl
  | tryExcept p g => cases h; rfl

theorem lockSeen_other {of : Nat → Nat} {i t : Nat} {w w' : World (Sessions ρ)} (ht : of t ≠ i) (h : w.step t = some w') :
    lockSeen of i w'.lock = lockSeen of i w.lock := by
  obtain ⟨cur, st, hu⟩ : ∃ cur st, w.threads t = ⟨cur, st⟩ := ⟨_, _, rfl⟩
  unfold World.step at h
  rw [hu] at h
  cases cur with
  | ret v =>
    cases st with
    | nil => cases h
    | cons f st => cases h; rfl
  | raise x =>
    cases st with
    | nil => cases h
    | cons f st => cases h; rfl
  | spin => cases h; rfl
  | subs f k => cases h; rfl
  | flags f k => cases h; rfl
  | acquire k =>
    dsimp only at h
    cases hl : w.lock with
    | free =>
      rw [hl] at h
      cases h
      simp only [lockSeen, if_neg ht]
    | held o n =>
      rw [hl] at h
      simp only [RLock.acquire] at h
      by_cases ho : o = t
      · subst ho
        simp only [if_true] at h
        cases h
        simp only [lockSeen, if_neg ht]
      · simp only [if_neg ho] at h
        cases h
  | release k =>
    dsimp only at h
    cases hl : w.lock with
    | free =>
      rw [hl] at h
      cases h
      simp only [World.put, hl]
    | held o n =>
      rw [hl] at h
      simp only [RLock.release] at h
      by_cases ho : o = t
      · subst ho
        simp only [if_true] at h
        cases h
        by_cases hn : n ≤ 1 <;> simp [lockSeen, hn, ht]
      · simp only [if_neg ho] at h
        cases h
        simp only [World.put, hl]
  | seq p k => cases h; rfl
  | tryFinally p q => cases h; rfl
  | tryExcept p g => cases h; rfl

end Bglib
