import Verif.Spec.Silence
import Verif.Lemmas.Threads
/-
Threads outside of deliveries are structured; after a request to terminate they are quiet.
-/
namespace Bglib
open Spec

variable {ρ : Type}

/-- The guarded part of `_dispatch`. -/
def dispatchBody (h : HandlersP (Logged ρ)) (fuel : Nat) (name : Text) (got : Nat) : Prog (Logged ρ) :=
  .flags id fun f =>
    if f.termReq then .flags (fun f => { f with terminated := true }) fun _ => .raise .systemExit
    else deliverP h name got fuel 0

/-- Programs in which deliveries are guarded. -/
inductive Soundly : Prog (Logged ρ) → Prop where
  | ret (v : Nat) : Soundly (.ret v)
  | raise (e : PyErr) : Soundly (.raise e)
  | spin : Soundly .spin
  | subs (f k) : (∀ l, Soundly (k l)) → Soundly (.subs f k)
  | flags (f k) : Leaves f → (∀ s, Soundly (k s)) → Soundly (.flags f k)
  | acquire (p) : Soundly p → Soundly (.acquire p)
  | release (p) : Soundly p → Soundly (.release p)
  | seq (p k) : Soundly p → (∀ v, Soundly (k v)) → Soundly (.seq p k)
  | tryFinally (p q) : Soundly p → Soundly q → Soundly (.tryFinally p q)
  | tryExcept (p h) : Soundly p → (∀ e, Soundly (h e)) → Soundly (.tryExcept p h)
  | guarded (h fuel name got) : Soundly (.tryFinally (dispatchBody h fuel name got) unlock)

/-- Programs that, once termination is requested, call no handler. -/
inductive Hushed : Prog (Logged ρ) → Prop where
  | ret (v : Nat) : Hushed (.ret v)
  | raise (e : PyErr) : Hushed (.raise e)
  | spin : Hushed .spin
  | subs (f k) : (∀ l, Hushed (k l)) → Hushed (.subs f k)
  | flags (f k) : Leaves f → (∀ s : Flags (Logged ρ), s.termReq = true → Hushed (k s)) → Hushed (.flags f k)
  | acquire (p) : Hushed p → Hushed (.acquire p)
  | release (p) : Hushed p → Hushed (.release p)
  | seq (p k) : Hushed p → (∀ v, Hushed (k v)) → Hushed (.seq p k)
  | tryFinally (p q) : Hushed p → Hushed q → Hushed (.tryFinally p q)
  | tryExcept (p h) : Hushed p → (∀ e, Hushed (h e)) → Hushed (.tryExcept p h)

/-- A property of all programs in a frame. -/
def Frame.All (P : Prog (Logged ρ) → Prop) : Frame (Logged ρ) → Prop
  | .seq k => ∀ v, P (k v)
  | .fin p => P p
  | .except h => ∀ e, P (h e)
  | .resume _ => True

def Thread.All (P : Prog (Logged ρ) → Prop) (th : Thread (Logged ρ)) : Prop := P th.cur ∧ ∀ f ∈ th.stack, f.All P

theorem leaves_id : Leaves (id : Flags (Logged ρ) → Flags (Logged ρ)) := fun _ => ⟨rfl, fun h => h⟩

theorem hushed_unlock : Hushed (unlock : Prog (Logged ρ)) := .release _ (.ret _)

theorem hushed_dispatchBody (h : HandlersP (Logged ρ)) (fuel : Nat) (name : Text) (got : Nat) : Hushed (dispatchBody h fuel name got) := by
  refine .flags _ _ leaves_id fun s hs => ?_
  rw [if_pos hs]
  exact .flags _ _ (fun _ => ⟨rfl, fun h => h⟩) fun _ _ => .raise _

theorem hushed_sound {p : Prog (Logged ρ)} (h : Soundly p) : Hushed p := by
  induction h with
  | ret v => exact .ret _
  | raise e => exact .raise _
  | spin => exact .spin
  | subs f k _ ih => exact .subs _ _ ih
  | flags f k hf _ ih => exact .flags _ _ hf fun s _ => ih s
  | acquire p _ ih => exact .acquire _ ih
  | release p _ ih => exact .release _ ih
  | seq p k _ _ ihp ihk => exact .seq _ _ ihp ihk
  | tryFinally p q _ _ ihp ihq => exact .tryFinally _ _ ihp ihq
  | tryExcept p h _ _ ihp ihh => exact .tryExcept _ _ ihp ihh
  | guarded h fuel name got => exact .tryFinally _ _ (hushed_dispatchBody h fuel name got) hushed_unlock

theorem hushed_thread {th : Thread (Logged ρ)} (h : th.All Soundly) : th.All Hushed := by
  refine ⟨hushed_sound h.1, fun f hf => ?_⟩
  have := h.2 f hf
  cases f with
  | seq k => exact fun v => hushed_sound (this v)
  | fin p => exact hushed_sound this
  | except h => exact fun e => hushed_sound (this e)
  | resume o => trivial

/-! ### Structure -/

theorem sound_synchronized {b : Prog (Logged ρ)} (h : Soundly b) : Soundly (synchronized b) :=
  .acquire _ (.tryFinally _ _ h (.release _ (.ret _)))

theorem sound_isActive : Soundly (isActiveP : Prog (Logged ρ)) := sound_synchronized (.flags _ _ leaves_id fun _ => .ret _)

theorem sound_calm {p : Prog (Logged ρ)} (h : Unwriting p) : Soundly p := by
  induction h with
  | ret v => exact .ret _
  | raise e => exact .raise _
  | spin => exact .spin
  | flags f k hf _ ih => exact .flags _ _ hf ih
  | seq p k _ _ ihp ihk => exact .seq _ _ ihp ihk
  | tryFinally p q _ _ ihp ihq => exact .tryFinally _ _ ihp ihq
  | tryExcept p h _ _ ihp ihh => exact .tryExcept _ _ ihp ihh
  | isActive => exact sound_isActive
  | close =>
    exact sound_synchronized (.flags _ _ (fun _ => ⟨rfl, fun h => h⟩) fun _ => .flags _ _ (fun _ => ⟨rfl, fun _ => rfl⟩) fun _ => .ret _)
  | sendLine w =>
    refine sound_synchronized (.flags _ _ leaves_id fun f => ?_)
    split
    · exact .ret _
    · exact .raise _
  | opens => exact .flags _ _ (fun _ => ⟨rfl, fun h => h⟩) fun _ => .ret _
  | register xs =>
    refine sound_synchronized ?_
    induction xs with
    | nil => exact .ret _
    | cons x xs ih => exact .subs _ _ fun _ => ih
  | unregister xs =>
    refine sound_synchronized ?_
    induction xs with
    | nil => exact .ret _
    | cons x xs ih =>
      refine .subs _ _ fun l => ?_
      split
      · exact ih
      · exact .raise _

theorem sound_dispatch (h : HandlersP (Logged ρ)) (fuel : Nat) (name : Text) (got : Nat) : Soundly (dispatchP h fuel name got) :=
  .acquire _ (.guarded h fuel name got)

theorem sound_listener (h : HandlersP (Logged ρ)) (next recv) (fuel : Nat) (hn : Leaves next) : Soundly (listenerP h next recv fuel) := by
  refine .seq _ _ (.tryExcept _ _ ?_ fun e => ?_) fun _ => .raise _
  · induction fuel with
    | zero => exact .spin
    | succ fuel ih =>
      refine .seq _ _ sound_isActive fun a => ?_
      split
      · exact .ret _
      · refine .flags _ _ hn fun f => ?_
        split
        · exact .raise _
        · exact .seq _ _ (sound_dispatch _ _ _ _) fun _ => ih
  · unfold listenerExceptP
    split
    · exact sound_dispatch _ _ _ _
    · exact sound_dispatch _ _ _ _
    · exact .ret _

/-- Structured, or inside a synchronized method behind which everything is structured. -/
def Shaped (th : Thread (Logged ρ)) : Prop :=
  th.All Soundly ∨ ∃ upper lower, th.stack = upper ++ .fin unlock :: lower ∧ ∀ f ∈ lower, f.All Soundly

theorem receive_sound (f : Frame (Logged ρ)) (P : Prog (Logged ρ) → Prop) (o : Py Nat) (st : List (Frame (Logged ρ))) (hf : f.All P)
    (hr : ∀ v, P (.ret v)) (he : ∀ e, P (.raise e)) (hst : ∀ f ∈ st, f.All P) : (f.receive o st).All P := by
  cases f with
  | seq k => cases o with
    | ok v => exact ⟨hf v, hst⟩
    | error e => exact ⟨he e, hst⟩
  | fin p =>
    refine ⟨hf, fun g hg => ?_⟩
    rcases List.mem_cons.1 hg with rfl | hg
    · trivial
    · exact hst g hg
  | except h => cases o with
    | ok v => exact ⟨hr v, hst⟩
    | error e => exact ⟨hf e, hst⟩
  | resume o' =>
    cases o' <;> cases o
    · exact ⟨he _, hst⟩
    · exact ⟨he _, hst⟩
    · exact ⟨he _, hst⟩
    · exact ⟨hr _, hst⟩

theorem receive_stack (f : Frame (Logged ρ)) (o : Py Nat) (st : List (Frame (Logged ρ))) :
    ∃ pre, (f.receive o st).stack = pre ++ st := by
  cases f with
  | seq k => cases o <;> exact ⟨[], rfl⟩
  | fin p => exact ⟨[_], rfl⟩
  | except h => cases o <;> exact ⟨[], rfl⟩
  | resume o' => cases o' <;> cases o <;> exact ⟨[], rfl⟩

/-- Threads that are not on turn stay as they are. -/
theorem put_other (w : World (Logged ρ)) (t u : Nat) (th : Thread (Logged ρ)) (h : u ≠ t) : (w.put t th).threads u = w.threads u := by
  simp [World.put, h]

theorem put_self (w : World (Logged ρ)) (t : Nat) (th : Thread (Logged ρ)) : (w.put t th).threads t = th := by simp [World.put]

/-- What a step makes of the thread on turn. -/
theorem step_thread {w w' : World (Logged ρ)} {t : Nat} (hs : w.step t = some w') :
    ∃ th, w'.threads = (w.put t th).threads ∧
      match w.threads t with
      | ⟨.ret v, st⟩ => ∃ f r, st = f :: r ∧ th = f.receive (.ok v) r ∧ w'.flags = w.flags
      | ⟨.raise e, st⟩ => ∃ f r, st = f :: r ∧ th = f.receive (.error e) r ∧ w'.flags = w.flags
      | ⟨.spin, st⟩ => th = ⟨.spin, st⟩ ∧ w'.flags = w.flags
      | ⟨.subs _ k, st⟩ => th = ⟨k w.subs, st⟩ ∧ w'.flags = w.flags
      | ⟨.flags f k, st⟩ => th = ⟨k w.flags, st⟩ ∧ w'.flags = f w.flags
      | ⟨.acquire k, st⟩ => th = ⟨k, st⟩ ∧ w'.flags = w.flags
      | ⟨.release k, st⟩ => (th = ⟨k, st⟩ ∨ th = ⟨.raise .runtimeError, st⟩) ∧ w'.flags = w.flags
      | ⟨.seq p k, st⟩ => th = ⟨p, .seq k :: st⟩ ∧ w'.flags = w.flags
      | ⟨.tryFinally p q, st⟩ => th = ⟨p, .fin q :: st⟩ ∧ w'.flags = w.flags
      | ⟨.tryExcept p h, st⟩ => th = ⟨p, .except h :: st⟩ ∧ w'.flags = w.flags := by
  unfold World.step at hs
  rcases hth : w.threads t with ⟨cur, st⟩
  rw [hth] at hs
  cases cur with
  | ret v =>
    cases st with
    | nil => simp at hs
    | cons f st =>
      simp only [Option.some.injEq] at hs
      subst hs
      exact ⟨_, rfl, f, st, rfl, rfl, rfl⟩
  | raise e =>
    cases st with
    | nil => simp at hs
    | cons f st =>
      simp only [Option.some.injEq] at hs
      subst hs
      exact ⟨_, rfl, f, st, rfl, rfl, rfl⟩
  | spin | subs _ _ | flags _ _ | seq _ _ | tryFinally _ _ | tryExcept _ _ =>
    simp only [Option.some.injEq] at hs
    subst hs
    exact ⟨_, rfl, rfl, rfl⟩
  | acquire k =>
    dsimp only at hs
    cases hl : w.lock.acquire t with
    | none => rw [hl] at hs; simp at hs
    | some l =>
      rw [hl] at hs
      simp only [Option.some.injEq] at hs
      subst hs
      exact ⟨_, rfl, rfl, rfl⟩
  | release k =>
    dsimp only at hs
    cases hl : w.lock.release t with
    | none =>
      rw [hl] at hs
      simp only [Option.some.injEq] at hs
      subst hs
      exact ⟨_, rfl, Or.inr rfl, rfl⟩
    | some l =>
      rw [hl] at hs
      simp only [Option.some.injEq] at hs
      subst hs
      exact ⟨_, rfl, Or.inl rfl, rfl⟩

theorem all_cons {P : Prog (Logged ρ) → Prop} {f : Frame (Logged ρ)} {st : List (Frame (Logged ρ))} (h : f.All P) (hst : ∀ g ∈ st, g.All P) :
    ∀ g ∈ f :: st, g.All P := by
  intro g hg
  rcases List.mem_cons.1 hg with rfl | hg
  · exact h
  · exact hst g hg

theorem step_shaped (w w' : World (Logged ρ)) (t : Nat) (h : ∀ u, Shaped (w.threads u)) (hs : w.step t = some w') :
    ∀ u, Shaped (w'.threads u) := by
  obtain ⟨th, e, hm⟩ := step_thread hs
  suffices Shaped th by
    intro u
    rw [e]
    by_cases hu : u = t
    · subst hu; rw [put_self]; exact this
    · rw [put_other _ _ _ _ hu]; exact h u
  have hsh := h t
  rcases hth : w.threads t with ⟨cur, st⟩
  rw [hth] at hm hsh
  rcases hsh with ⟨hc, hst⟩ | ⟨upper, lower, hst, hl⟩
  · dsimp only at hc hst
    cases hc with
    | ret v =>
      obtain ⟨f, r, rfl, rfl, _⟩ := hm
      exact Or.inl (receive_sound f _ _ r (hst f (by simp)) .ret .raise fun g hg => hst g (by simp [hg]))
    | raise e =>
      obtain ⟨f, r, rfl, rfl, _⟩ := hm
      exact Or.inl (receive_sound f _ _ r (hst f (by simp)) .ret .raise fun g hg => hst g (by simp [hg]))
    | spin => obtain ⟨rfl, _⟩ := hm; exact Or.inl ⟨.spin, hst⟩
    | subs f k hk => obtain ⟨rfl, _⟩ := hm; exact Or.inl ⟨hk _, hst⟩
    | flags f k hf hk => obtain ⟨rfl, _⟩ := hm; exact Or.inl ⟨hk _, hst⟩
    | acquire p hp => obtain ⟨rfl, _⟩ := hm; exact Or.inl ⟨hp, hst⟩
    | release p hp =>
      obtain ⟨rfl | rfl, _⟩ := hm
      · exact Or.inl ⟨hp, hst⟩
      · exact Or.inl ⟨.raise _, hst⟩
    | seq p k hp hk => obtain ⟨rfl, _⟩ := hm; exact Or.inl ⟨hp, all_cons hk hst⟩
    | tryFinally p q hp hq => obtain ⟨rfl, _⟩ := hm; exact Or.inl ⟨hp, all_cons hq hst⟩
    | tryExcept p h hp hh => obtain ⟨rfl, _⟩ := hm; exact Or.inl ⟨hp, all_cons hh hst⟩
    | guarded h fuel name got => obtain ⟨rfl, _⟩ := hm; exact Or.inr ⟨[], st, rfl, hst⟩
  · dsimp only at hst
    subst hst
    have keep : ∀ cur pre, Shaped ⟨cur, pre ++ (upper ++ .fin unlock :: lower)⟩ := fun cur pre =>
      Or.inr ⟨pre ++ upper, lower, by simp, hl⟩
    have ends : ∀ o f r, upper ++ .fin unlock :: lower = f :: r → Shaped (f.receive o r) := by
      intro o f r he
      cases upper with
      | nil =>
        obtain ⟨rfl, rfl⟩ := List.cons.inj he
        exact Or.inl (receive_sound _ _ _ _ (.release _ (.ret _)) .ret .raise hl)
      | cons g upper =>
        obtain ⟨rfl, rfl⟩ := List.cons.inj he
        obtain ⟨pre, hp⟩ := receive_stack g o (upper ++ .fin unlock :: lower)
        exact Or.inr ⟨pre ++ upper, lower, by rw [List.append_assoc]; exact hp, hl⟩
    cases cur with
    | ret v => obtain ⟨f, r, he, rfl, _⟩ := hm; exact ends _ _ _ he
    | raise e => obtain ⟨f, r, he, rfl, _⟩ := hm; exact ends _ _ _ he
    | spin => obtain ⟨rfl, _⟩ := hm; exact keep _ []
    | subs f k => obtain ⟨rfl, _⟩ := hm; exact keep _ []
    | flags f k => obtain ⟨rfl, _⟩ := hm; exact keep _ []
    | acquire p => obtain ⟨rfl, _⟩ := hm; exact keep _ []
    | release p => obtain ⟨rfl | rfl, _⟩ := hm <;> exact keep _ []
    | seq p k => obtain ⟨rfl, _⟩ := hm; exact keep _ [_]
    | tryFinally p q => obtain ⟨rfl, _⟩ := hm; exact keep _ [_]
    | tryExcept p h => obtain ⟨rfl, _⟩ := hm; exact keep _ [_]

/-! ### Silence -/

theorem step_hushed (w w' : World (Logged ρ)) (t : Nat) (ht : w.flags.termReq = true) (h : ∀ u, (w.threads u).All Hushed)
    (hs : w.step t = some w') : w'.flags.termReq = true ∧ calls w' = calls w ∧ ∀ u, (w'.threads u).All Hushed := by
  obtain ⟨th, e, hm⟩ := step_thread hs
  have hsh := h t
  suffices w'.flags.termReq = true ∧ calls w' = calls w ∧ th.All Hushed by
    refine ⟨this.1, this.2.1, fun u => ?_⟩
    rw [e]
    by_cases hu : u = t
    · subst hu; rw [put_self]; exact this.2.2
    · rw [put_other _ _ _ _ hu]; exact h u
  unfold calls
  rcases hth : w.threads t with ⟨cur, st⟩
  rw [hth] at hm hsh
  obtain ⟨hc, hst⟩ := hsh
  dsimp only at hc hst
  cases hc with
  | ret v =>
    obtain ⟨f, r, rfl, rfl, hf⟩ := hm
    exact ⟨by rw [hf, ht], by rw [hf], receive_sound f _ _ r (hst f (by simp)) .ret .raise fun g hg => hst g (by simp [hg])⟩
  | raise e =>
    obtain ⟨f, r, rfl, rfl, hf⟩ := hm
    exact ⟨by rw [hf, ht], by rw [hf], receive_sound f _ _ r (hst f (by simp)) .ret .raise fun g hg => hst g (by simp [hg])⟩
  | spin => obtain ⟨rfl, hf⟩ := hm; exact ⟨by rw [hf, ht], by rw [hf], .spin, hst⟩
  | subs f k hk => obtain ⟨rfl, hf⟩ := hm; exact ⟨by rw [hf, ht], by rw [hf], hk _, hst⟩
  | flags f k hf' hk =>
    obtain ⟨rfl, hf⟩ := hm
    exact ⟨by rw [hf]; exact (hf' _).2 ht, by rw [hf]; exact (hf' _).1, hk _ ht, hst⟩
  | acquire p hp => obtain ⟨rfl, hf⟩ := hm; exact ⟨by rw [hf, ht], by rw [hf], hp, hst⟩
  | release p hp =>
    obtain ⟨rfl | rfl, hf⟩ := hm
    · exact ⟨by rw [hf, ht], by rw [hf], hp, hst⟩
    · exact ⟨by rw [hf, ht], by rw [hf], .raise _, hst⟩
  | seq p k hp hk => obtain ⟨rfl, hf⟩ := hm; exact ⟨by rw [hf, ht], by rw [hf], hp, all_cons hk hst⟩
  | tryFinally p q hp hq => obtain ⟨rfl, hf⟩ := hm; exact ⟨by rw [hf, ht], by rw [hf], hp, all_cons hq hst⟩
  | tryExcept p h hp hh => obtain ⟨rfl, hf⟩ := hm; exact ⟨by rw [hf, ht], by rw [hf], hp, all_cons hh hst⟩

theorem later_hushed {w w' : World (Logged ρ)} (hl : Later w w') (ht : w.flags.termReq = true) (h : ∀ u, (w.threads u).All Hushed) :
    w'.flags.termReq = true ∧ calls w' = calls w ∧ ∀ u, (w'.threads u).All Hushed := by
  induction hl with
  | refl => exact ⟨ht, rfl, h⟩
  | step w' w'' t _ hs ih =>
    obtain ⟨a, b, c⟩ := ih
    obtain ⟨a', b', c'⟩ := step_hushed w' w'' t a c hs
    exact ⟨a', b'.trans b, c'⟩

theorem later_shaped {w w' : World (Logged ρ)} (hl : Later w w') (h : ∀ u, Shaped (w.threads u)) : ∀ u, Shaped (w'.threads u) := by
  induction hl with
  | refl => exact h
  | step w' w'' t _ hs ih => exact step_shaped w' w'' t ih hs

theorem client_calm {p : Prog (Logged ρ)} (h : Unwriting p) : Client p := by
  induction h with
  | ret v => exact .ret _
  | raise e => exact .raise _
  | spin => exact .spin
  | flags f k hf _ ih => exact .flags _ _ ih
  | seq p k _ _ ihp ihk => exact .seq _ _ ihp ihk
  | tryFinally p q _ _ ihp ihq => exact .tryFinally _ _ ihp ihq
  | tryExcept p h _ _ ihp ihh => exact .tryExcept _ _ ihp ihh
  | isActive => exact .isActive
  | close => exact .close
  | sendLine w => exact .sendLine w
  | opens => exact .opens
  | register xs => exact .register xs
  | unregister xs => exact .unregister xs

theorem begins_starting {th : Thread (Logged ρ)} (h : Begins th) : Starting th := by
  cases h with
  | client p hp => exact .client p (client_calm hp)
  | listener h next recv fuel hn hh =>
    refine .listener _ _ _ _ fun x n p hp got => ?_
    unfold logged at hp
    cases hx : h x n with
    | none => rw [hx] at hp; cases hp
    | some q =>
      rw [hx] at hp
      have e := Option.some.inj hp
      rw [← e]
      exact .flags _ _ fun _ => hh x n q hx got

theorem begins_shaped {th : Thread (Logged ρ)} (h : Begins th) : Shaped th := by
  cases h with
  | client p hp => exact Or.inl ⟨sound_calm hp, by simp⟩
  | listener h next recv fuel hn hh => exact Or.inl ⟨sound_listener _ _ _ _ hn, by simp⟩

theorem later_runs {w w' : World (Logged ρ)} (h : Fresh w) (hl : Later w w') : Runs w' := by
  induction hl with
  | refl => exact .start _ h.1 fun t => begins_starting (h.2 t)
  | step w' w'' t _ hs ih => exact .step w' w'' t ih hs

end Bglib
