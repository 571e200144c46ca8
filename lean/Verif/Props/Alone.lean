import Verif.Lemmas.Alone
import Verif.Props.Threads
/-
C98: the methods of a session do what they do in a program without threads.
-/
namespace Bglib
open Spec

variable {σ : Type}

/-! ### Methods that are not interrupted -/

theorem C98_open (s : Sess σ) : Alone openP s (.ok 0) s.open := alone_flags (alone_ret _ _)

theorem C98_close (s : Sess σ) : Alone closeP s (.ok 0) s.close :=
  alone_synchronized (alone_flags (alone_flags (alone_ret _ _)))

theorem C98_isActive (s : Sess σ) : Alone isActiveP s (.ok (if s.active then 1 else 0)) s :=
  alone_synchronized (alone_flags (alone_ret _ _))

theorem C98_sendLine (write : Flags σ → Py Nat) (s : Sess σ) : Alone (sendLineP write) s (write s.flags) s := by
  refine alone_synchronized (alone_flags ?_)
  cases h : write s.flags <;> simp only
  · exact alone_raise _ _
  · exact alone_ret _ _

theorem C98_register (xs : List Sub) (s : Sess σ) : Alone (registerP xs) s (.ok 0) (s.register xs) :=
  alone_synchronized (alone_registerLoop xs s)

theorem C98_unregister (xs : List Sub) (s : Sess σ) :
    Alone (unregisterP xs) s ((s.unregister xs).1.map fun _ => 0) (s.unregister xs).2 :=
  alone_synchronized (alone_unregisterLoop xs s)

/-- Delivering a message, unless that never ends. -/
theorem C98_dispatch {hp : HandlersP σ} {h : Handlers σ} {num : Got → Nat} (hh : SameHandlers hp h num) (fuel : Nat) (name : Text) (got : Got)
    (s : Sess σ) (hd : (dispatch h fuel name got s).result ≠ .error .diverges) :
    ∃ v, Alone (dispatchP hp fuel name (num got)) s ((dispatch h fuel name got s).result.map fun _ => v) (dispatch h fuel name got s).sess := by
  unfold dispatch at hd ⊢
  cases ht : s.termReq with
  | true =>
    refine ⟨0, alone_synchronized (alone_flags ?_)⟩
    simp only [Sess.flags, ht, if_true]
    exact alone_flags (alone_raise _ _)
  | false =>
    rw [ht] at hd
    obtain ⟨v, hv⟩ := alone_deliver hh name got fuel 0 s [] hd
    refine ⟨v, alone_synchronized (alone_flags ?_)⟩
    have hf : ¬ s.flags.termReq = true := by simp [Sess.flags, ht]
    rw [if_neg hf, if_neg (by simp)]
    exact hv

/-! ### The listener -/

/-- It ends with `SystemExit` if the session is not active. -/
theorem C98_inactive (hp : HandlersP σ) (next : Flags σ → Flags σ) (recv : Flags σ → Py (Text × Nat)) (fuel : Nat) (s : Sess σ)
    (ha : s.active = false) : Alone (listenerP hp next recv (fuel + 1)) s (.error .systemExit) s := by
  refine alone_seq (v := 0) (alone_try_ok ?_) (alone_raise _ _)
  refine alone_seq (C98_isActive s) ?_
  rw [ha]
  exact alone_ret _ _

/-- If receiving raises, it does what the handlers of exceptions do in the model without threads, and ends. -/
theorem C98_raised {hp : HandlersP σ} {h : Handlers σ} {num : Got → Nat} (hh : SameHandlers hp h num) (h0 : ∀ e, num (.exc e) = 0)
    (next : Flags σ → Flags σ) (recv : Flags σ → Py (Text × Nat)) (fuel : Nat) (s : Sess σ) (ha : s.active = true) (e : PyErr)
    (hr : recv s.flags = .error e) (hd : ∀ name, (dispatch h (fuel + 1) name (.exc e) (s.withFlags (next s.flags))).result ≠ .error .diverges) :
    ∃ e', Alone (listenerP hp next recv (fuel + 1)) s (.error e') (listenerExcept h (fuel + 1) e (s.withFlags (next s.flags))).sess := by
  have hloop : Alone (listenLoopP hp next recv (fuel + 1)) s (.error e) (s.withFlags (next s.flags)) := by
    refine alone_seq (C98_isActive s) ?_
    rw [ha]
    refine alone_flags ?_
    simp only [hr]
    exact alone_raise _ _
  have key : ∃ o, Alone (listenerExceptP hp (fuel + 1) e) (s.withFlags (next s.flags)) o
      (listenerExcept h (fuel + 1) e (s.withFlags (next s.flags))).sess := by
    have hdis : ∀ name, ∃ o, Alone (dispatchP hp (fuel + 1) name 0) (s.withFlags (next s.flags)) o
        (dispatch h (fuel + 1) name (.exc e) (s.withFlags (next s.flags))).sess := by
      intro name
      obtain ⟨v, hv⟩ := C98_dispatch hh (fuel + 1) name (.exc e) (s.withFlags (next s.flags)) (hd name)
      rw [h0] at hv
      exact ⟨_, hv⟩
    unfold listenerExceptP listenerExcept
    split
    · exact hdis _
    · exact hdis _
    · next h1 h2 =>
      split
      · exact absurd rfl h1
      · exact absurd rfl h2
      · exact ⟨_, alone_ret 0 _⟩
  obtain ⟨o, ho⟩ := key
  cases o with
  | ok v => exact ⟨_, alone_seq (alone_try_error hloop ho) (alone_raise _ _)⟩
  | error e' => exact ⟨e', alone_seq_error (alone_try_error hloop ho)⟩

/-- A received message is dispatched, and it listens on. -/
theorem C98_received {hp : HandlersP σ} {h : Handlers σ} {num : Got → Nat} (hh : SameHandlers hp h num) (next : Flags σ → Flags σ)
    (recv : Flags σ → Py (Text × Nat)) (fuel : Nat) (s : Sess σ) (ha : s.active = true) (name : Text) (got : Got)
    (hr : recv s.flags = .ok (name, num got)) (hd : (dispatch h fuel name got (s.withFlags (next s.flags))).result = .ok ())
    (o : Py Nat) (s' : Sess σ) (hl : Alone (listenLoopP hp next recv fuel) (dispatch h fuel name got (s.withFlags (next s.flags))).sess o s') :
    Alone (listenLoopP hp next recv (fuel + 1)) s o s' := by
  refine alone_seq (C98_isActive s) ?_
  rw [ha]
  refine alone_flags ?_
  simp only [hr]
  obtain ⟨v, hv⟩ := C98_dispatch hh fuel name got (s.withFlags (next s.flags)) (by rw [hd]; simp)
  rw [hd] at hv
  exact alone_seq hv hl

/-! ### Methods that are interrupted -/

/-- Whatever other threads do meanwhile, registering adds the subscribers at the end, in their order. -/
theorem C98_registered (w w' : World σ) (h : Runs w) (t : Nat) (xs : List Sub) (st : List (Frame σ)) (hb : Enters w t (registerLoop xs) st)
    (hw : Underway t st w w') (o : Py Nat) (ho : Leaving w' t st o) : o = .ok 0 ∧ w'.subs = w.subs ++ xs := by
  have inv : ∃ ys, w'.threads t = ⟨registerLoop ys, .fin unlock :: st⟩ ∧ w'.subs ++ ys = w.subs ++ xs := by
    clear ho
    induction hw with
    | refl => exact ⟨xs, hb, rfl⟩
    | step w' w'' u hw' hn hs ih =>
      obtain ⟨ys, h1, h2⟩ := ih
      by_cases hu : u = t
      · subst hu
        cases ys with
        | nil => exact absurd h1 (hn (.ok 0))
        | cons y ys =>
          unfold World.step at hs
          rw [h1] at hs
          simp only [registerLoop, Option.some.injEq] at hs
          subst hs
          exact ⟨ys, put_same _ _ _, by simpa using h2⟩
      · exact ⟨ys, (step_leaves hu hs).trans h1, by rw [C32_frozen w' w'' (within_runs h hw') t u (by unfold Inside; rw [h1]; simp) hu hs]; exact h2⟩
  obtain ⟨ys, h1, h2⟩ := inv
  rw [Leaving, h1] at ho
  cases ys with
  | nil =>
    cases o with
    | ok v =>
      have := congrArg Thread.cur ho
      simp only [registerLoop, outcome, Prog.ret.injEq] at this
      subst this
      exact ⟨rfl, by simpa using h2⟩
    | error e => have := congrArg Thread.cur ho; simp [registerLoop, outcome] at this
  | cons y ys => cases o <;> (have := congrArg Thread.cur ho; simp [registerLoop, outcome] at this)

/-- Whatever other threads do meanwhile, unregistering does to the list what it does without threads, with the same
outcome. -/
theorem C98_unregistered (w w' : World σ) (h : Runs w) (t : Nat) (xs : List Sub) (st : List (Frame σ))
    (hb : Enters w t (unregisterLoop xs) st) (hw : Underway t st w w') (o : Py Nat) (ho : Leaving w' t st o) :
    o = ((sessionOf w).unregister xs).1.map (fun _ => 0) ∧ w'.subs = ((sessionOf w).unregister xs).2.subs := by
  have hsub : ∀ (ys : List Sub) (s1 s2 : Sess σ), s1.subs = s2.subs →
      (s1.unregister ys).1 = (s2.unregister ys).1 ∧ (s1.unregister ys).2.subs = (s2.unregister ys).2.subs := by
    intro ys
    induction ys with
    | nil => intro s1 s2 he; exact ⟨rfl, he⟩
    | cons y ys ih =>
      intro s1 s2 he
      unfold Sess.unregister
      rw [he]
      split
      · exact ih _ _ rfl
      · exact ⟨rfl, he⟩
  obtain ⟨R, hR⟩ : ∃ R, R = (sessionOf w).unregister xs := ⟨_, rfl⟩
  rw [← hR]
  have inv : (∃ ys, w'.threads t = ⟨unregisterLoop ys, .fin unlock :: st⟩ ∧
      ((sessionOf w').unregister ys).1 = R.1 ∧
      ((sessionOf w').unregister ys).2.subs = R.2.subs) ∨
      (w'.threads t = ⟨.raise .valueError, .fin unlock :: st⟩ ∧ R.1 = .error .valueError ∧
        w'.subs = R.2.subs) := by
    clear ho
    induction hw with
    | refl => exact .inl ⟨xs, hb, by rw [hR], by rw [hR]⟩
    | step w' w'' u hw' hn hs ih =>
      rcases ih with ⟨ys, h1, h2, h3⟩ | ⟨h1, _⟩
      · by_cases hu : u = t
        · subst hu
          cases ys with
          | nil => exact absurd h1 (hn (.ok 0))
          | cons y ys =>
            unfold World.step at hs
            rw [h1] at hs
            simp only [unregisterLoop, Option.some.injEq] at hs
            unfold Sess.unregister at h2 h3
            split at h2
            · next hy =>
              rw [if_pos hy] at h3
              rw [if_pos (show y ∈ w'.subs from hy)] at hs
              subst hs
              exact .inl ⟨ys, put_same _ _ _, h2, h3⟩
            · next hy =>
              rw [if_neg hy] at h3
              rw [if_neg (show ¬ y ∈ w'.subs from hy)] at hs
              subst hs
              refine .inr ⟨put_same _ _ _, h2.symm, ?_⟩
              rw [← h3]
              exact List.erase_of_not_mem hy
        · have hf := C32_frozen w' w'' (within_runs h hw') t u (by unfold Inside; rw [h1]; simp) hu hs
          have := hsub ys (sessionOf w'') (sessionOf w') hf
          exact .inl ⟨ys, (step_leaves hu hs).trans h1, this.1.trans h2, this.2.trans h3⟩
      · exact absurd h1 (hn (.error .valueError))
  rcases inv with ⟨ys, h1, h2, h3⟩ | ⟨h1, h2, h3⟩
  · rw [Leaving, h1] at ho
    have hc := congrArg Thread.cur ho
    cases ys with
    | nil =>
      cases o with
      | ok v =>
        simp only [unregisterLoop, outcome, Prog.ret.injEq] at hc
        subst hc
        exact ⟨by rw [← h2]; rfl, h3⟩
      | error e => simp [unregisterLoop, outcome] at hc
    | cons y ys => cases o <;> simp [unregisterLoop, outcome] at hc
  · rw [Leaving, h1] at ho
    have hc := congrArg Thread.cur ho
    cases o with
    | ok v => simp [outcome] at hc
    | error e =>
      simp only [outcome, Prog.raise.injEq] at hc
      subst hc
      exact ⟨by rw [h2]; rfl, h3⟩

/-! ### Non-vacuity -/

/-- A handler that closes the session, with and without threads. -/
example : SameHandlers (σ := Unit) (fun x _ => if x = 0 then some fun _ => closeP else none)
    (fun x _ => if x = 0 then some fun _ s => (.ok (), s.close) else none) (fun _ => 0) := by
  intro x name
  by_cases hx : x = 0
  · simp only [hx, if_true]
    exact fun _ s => ⟨0, C98_close s⟩
  · simp only [hx, if_false]

example : (dispatch (σ := Unit) (fun x _ => if x = 0 then some fun _ s => (.ok (), s.close) else none) 3 t!"m" (.text []) ⟨[0, 1], true, false, false, ()⟩).result =
    .ok () := rfl

/-- A thread that can run alone. -/
example : ∃ (w : World Unit), w.threads 0 = ⟨closeP, []⟩ ∧ CanLock w 0 :=
  ⟨⟨[], ⟨true, false, false, ()⟩, .free, fun _ => ⟨closeP, []⟩⟩, rfl, .inl rfl⟩

/-- Two threads that register and unregister. -/
def registering : World Unit :=
  ⟨[2], ⟨true, false, false, ()⟩, .free, fun t => if t = 0 then ⟨registerP [1], []⟩ else ⟨unregisterP [2, 3], []⟩⟩

theorem registering_runs : Runs registering := .start _ rfl fun t => by
  unfold registering
  dsimp only
  split
  · exact .client _ (.register _)
  · exact .client _ (.unregister _)

example : ∃ w w' : World Unit, Runs w ∧ Enters w 0 (registerLoop [1]) [] ∧ Underway 0 [] w w' ∧ Leaving w' 0 [] (.ok 0) := by
  refine ⟨_, _, runs_turns registering _ registering_runs [0, 0] rfl, rfl, .step _ _ _ 0 (.refl _) ?_ rfl, rfl⟩
  intro o ho
  have := congrArg Thread.cur ho
  cases o <;> cases this

example : ∃ w w' : World Unit, Runs w ∧ Enters w 1 (unregisterLoop [2, 3]) [] ∧ Underway 1 [] w w' ∧ Leaving w' 1 [] (.error .valueError) := by
  refine ⟨_, _, runs_turns registering _ registering_runs [1, 1] rfl, rfl, .step _ _ _ 1 (.step _ _ _ 1 (.refl _) ?_ rfl) ?_ rfl, rfl⟩
  all_goals
    intro o ho
    have := congrArg Thread.cur ho
    cases o <;> cases this

end Bglib
