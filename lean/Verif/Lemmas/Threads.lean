import Verif.Spec.Threads
/-
The discipline of the lock: programs are balanced, and a thread holds the lock as often as the frames of
its stack say.
-/
namespace Bglib
open Spec

variable {σ : Type}

/-- `Typed p n r`: started while holding the lock `n` times, `p` ends holding it `r` times, whether it
returns or raises, and touches `subscribers` only while holding it. -/
inductive Typed : Prog σ → Nat → Nat → Prop where
  | ret (v n) : Typed (.ret v) n n
  | raise (e n) : Typed (.raise e) n n
  | spin (n) : Typed .spin n n
  | subs (f k n) : (∀ l, Typed (k l) (n + 1) (n + 1)) → Typed (.subs f k) (n + 1) (n + 1)
  | flags (f k n) : (∀ s, Typed (k s) n n) → Typed (.flags f k) n n
  | acquire (b n) : Typed b (n + 1) (n + 1) → Typed (.acquire (.tryFinally b unlock)) n n
  | guarded (b n) : Typed b (n + 1) (n + 1) → Typed (.tryFinally b unlock) (n + 1) n
  | release (n) : Typed unlock (n + 1) n
  | seq (p k n) : Typed p n n → (∀ v, Typed (k v) n n) → Typed (.seq p k) n n
  | tryFinally (p q n) : Typed p n n → Typed q n n → Typed (.tryFinally p q) n n
  | tryExcept (p h n) : Typed p n n → (∀ e, Typed (h e) n n) → Typed (.tryExcept p h) n n

/-- `STyped st n`: the frames expect an outcome while the lock is held `n` times. -/
inductive STyped : List (Frame σ) → Nat → Prop where
  | nil : STyped [] 0
  | seq (k st n) : (∀ v, Typed (k v) n n) → STyped st n → STyped (.seq k :: st) n
  | unlock (st n) : STyped st n → STyped (.fin unlock :: st) (n + 1)
  | fin (p st n) : Typed p n n → STyped st n → STyped (.fin p :: st) n
  | except (h st n) : (∀ e, Typed (h e) n n) → STyped st n → STyped (.except h :: st) n
  | resume (o st n) : STyped st n → STyped (.resume o :: st) n

theorem Typed.le {p : Prog σ} {n r : Nat} (h : Typed p n r) : r ≤ n := by
  cases h <;> omega

theorem typed_synchronized (b : Prog σ) (n : Nat) (h : Typed b (n + 1) (n + 1)) :
    Typed (synchronized b) n n := .acquire b n h

theorem typed_isActive (n : Nat) : Typed (isActiveP : Prog σ) n n :=
  .acquire _ n (.flags _ _ _ fun _ => .ret _ _)

theorem typed_close (n : Nat) : Typed (closeP : Prog σ) n n :=
  .acquire _ n (.flags _ _ _ fun _ => .flags _ _ _ fun _ => .ret _ _)

theorem typed_sendLine (w : Flags σ → Py Nat) (n : Nat) : Typed (sendLineP w) n n := by
  refine .acquire _ n (.flags _ _ _ fun f => ?_)
  split
  · exact .ret _ _
  · exact .raise _ _

theorem typed_register (xs : List Sub) (n : Nat) : Typed (registerP xs : Prog σ) n n := by
  refine .acquire _ n ?_
  induction xs with
  | nil => exact .ret _ _
  | cons x xs ih => exact .subs _ _ _ fun _ => ih

theorem typed_unregister (xs : List Sub) (n : Nat) : Typed (unregisterP xs : Prog σ) n n := by
  refine .acquire _ n ?_
  induction xs with
  | nil => exact .ret _ _
  | cons x xs ih =>
    refine .subs _ _ _ fun l => ?_
    split
    · exact ih
    · exact .raise _ _

theorem typed_client (p : Prog σ) (h : Client p) (n : Nat) : Typed p n n := by
  induction h generalizing n with
  | ret v => exact .ret _ _
  | raise e => exact .raise _ _
  | spin => exact .spin _
  | flags f k _ ih => exact .flags _ _ _ fun s => ih s n
  | seq p k _ _ ihp ihk => exact .seq _ _ _ (ihp n) fun v => ihk v n
  | tryFinally p q _ _ ihp ihq => exact .tryFinally _ _ _ (ihp n) (ihq n)
  | tryExcept p h _ _ ihp ihh => exact .tryExcept _ _ _ (ihp n) fun e => ihh e n
  | isActive => exact typed_isActive n
  | close => exact typed_close n
  | sendLine w => exact typed_sendLine w n
  | opens => exact .flags _ _ _ fun _ => .ret _ _
  | register xs => exact typed_register xs n
  | unregister xs => exact typed_unregister xs n

theorem typed_deliver (h : HandlersP σ) (hh : ∀ x n p, h x n = some p → ∀ got, Client (p got)) (name : Text)
    (got fuel i n : Nat) : Typed (deliverP h name got fuel i) (n + 1) (n + 1) := by
  induction fuel generalizing i with
  | zero => exact .spin _
  | succ fuel ih =>
    refine .subs _ _ _ fun l => ?_
    split
    · exact .ret _ _
    · split
      · exact ih _
      · next p hp => exact .seq _ _ _ (typed_client _ (hh _ _ _ hp _) _) fun _ => ih _

theorem typed_dispatch (h : HandlersP σ) (hh : ∀ x n p, h x n = some p → ∀ got, Client (p got)) (fuel : Nat)
    (name : Text) (got n : Nat) : Typed (dispatchP h fuel name got) n n := by
  refine .acquire _ n (.flags _ _ _ fun f => ?_)
  split
  · exact .flags _ _ _ fun _ => .raise _ _
  · exact typed_deliver h hh name got fuel 0 n

theorem typed_listener (h : HandlersP σ) (hh : ∀ x n p, h x n = some p → ∀ got, Client (p got)) (next recv)
    (fuel n : Nat) : Typed (listenerP h next recv fuel) n n := by
  refine .seq _ _ _ (.tryExcept _ _ _ ?_ fun e => ?_) fun _ => .raise _ _
  · induction fuel with
    | zero => exact .spin _
    | succ fuel ih =>
      refine .seq _ _ _ (typed_isActive n) fun a => ?_
      split
      · exact .ret _ _
      · refine .flags _ _ _ fun f => ?_
        split
        · exact .raise _ _
        · exact .seq _ _ _ (typed_dispatch h hh _ _ _ _) fun _ => ih
  · unfold listenerExceptP
    split
    · exact typed_dispatch h hh _ _ _ _
    · exact typed_dispatch h hh _ _ _ _
    · exact .ret _ _

theorem typed_starting (th : Thread σ) (h : Starting th) : Typed th.cur 0 0 ∧ STyped th.stack 0 := by
  cases h with
  | client p hp => exact ⟨typed_client p hp 0, .nil⟩
  | listener h next recv fuel hh => exact ⟨typed_listener h hh next recv fuel 0, .nil⟩

/-- How often thread `t` holds the lock. -/
def RLock.depth (l : RLock) (t : Nat) : Nat :=
  match l with
  | .free => 0
  | .held o n => if o = t then n else 0

/-- The invariant of all threads. -/
structure WInv (w : World σ) : Prop where
  pos : ∀ o n, w.lock = .held o n → 1 ≤ n
  typed : ∀ t, ∃ r, Typed (w.threads t).cur (w.lock.depth t) r ∧ STyped (w.threads t).stack r

theorem receive_typed (f : Frame σ) (o : Py Nat) (st : List (Frame σ)) (n : Nat) (h : STyped (f :: st) n) :
    ∃ r, Typed (f.receive o st).cur n r ∧ STyped (f.receive o st).stack r := by
  cases h with
  | seq k st n hk hst =>
    cases o with
    | ok v => exact ⟨n, hk v, hst⟩
    | error e => exact ⟨n, .raise _ _, hst⟩
  | unlock st n hst => exact ⟨n, .release n, .resume o st n hst⟩
  | fin p st n hp hst => exact ⟨n, hp, .resume o st n hst⟩
  | except h st n hh hst =>
    cases o with
    | ok v => exact ⟨n, .ret _ _, hst⟩
    | error e => exact ⟨n, hh e, hst⟩
  | resume o' st n hst =>
    cases o' with
    | ok v' => cases o with
      | ok v => exact ⟨n, .ret _ _, hst⟩
      | error e => exact ⟨n, .raise _ _, hst⟩
    | error e' => cases o with
      | ok v => exact ⟨n, .raise _ _, hst⟩
      | error e => exact ⟨n, .raise _ _, hst⟩

/-- A step that changes the lock only as seen by thread `t`. -/
theorem inv_put (w w' : World σ) (t : Nat) (th : Thread σ) (hi : WInv w)
    (hth : w'.threads = (w.put t th).threads) (hpos : ∀ o n, w'.lock = .held o n → 1 ≤ n)
    (hd : ∀ u, u ≠ t → w'.lock.depth u = w.lock.depth u)
    (ht : ∃ r, Typed th.cur (w'.lock.depth t) r ∧ STyped th.stack r) : WInv w' := by
  refine ⟨hpos, fun u => ?_⟩
  rw [hth]
  unfold World.put
  by_cases hu : u = t
  · subst hu
    simpa using ht
  · simp only [hu, if_false]
    rw [hd u hu]
    exact hi.typed u

theorem step_inv (w w' : World σ) (t : Nat) (hi : WInv w) (hs : w.step t = some w') : WInv w' := by
  obtain ⟨r, ht, hst⟩ := hi.typed t
  unfold World.step at hs
  rcases hth : w.threads t with ⟨cur, st⟩
  rw [hth] at hs ht hst
  dsimp only at ht hst
  cases cur with
  | ret v =>
    cases st with
    | nil => simp at hs
    | cons f st =>
      simp only [Option.some.injEq] at hs
      subst hs
      have hr : r = w.lock.depth t := by cases ht; rfl
      subst hr
      exact inv_put w _ t _ hi rfl hi.pos (fun _ _ => rfl) (receive_typed f _ st _ hst)
  | raise e =>
    cases st with
    | nil => simp at hs
    | cons f st =>
      simp only [Option.some.injEq] at hs
      subst hs
      have hr : r = w.lock.depth t := by cases ht; rfl
      subst hr
      exact inv_put w _ t _ hi rfl hi.pos (fun _ _ => rfl) (receive_typed f _ st _ hst)
  | spin =>
    simp only [Option.some.injEq] at hs
    subst hs
    exact inv_put w _ t _ hi rfl hi.pos (fun _ _ => rfl) ⟨r, ht, hst⟩
  | subs f k =>
    simp only [Option.some.injEq] at hs
    subst hs
    refine inv_put w _ t ⟨k w.subs, st⟩ hi rfl hi.pos (fun _ _ => rfl) ⟨r, ?_, hst⟩
    show Typed (k w.subs) (w.lock.depth t) r
    generalize w.lock.depth t = d at ht
    cases ht with
    | subs _ _ n hk => exact hk _
  | flags f k =>
    simp only [Option.some.injEq] at hs
    subst hs
    refine inv_put w _ t ⟨k w.flags, st⟩ hi rfl hi.pos (fun _ _ => rfl) ⟨r, ?_, hst⟩
    show Typed (k w.flags) (w.lock.depth t) r
    generalize w.lock.depth t = d at ht
    cases ht with
    | flags _ _ _ hk => exact hk _
  | acquire k =>
    dsimp only at hs
    cases hl : w.lock.acquire t with
    | none => rw [hl] at hs; simp at hs
    | some l =>
      rw [hl] at hs
      simp only [Option.some.injEq] at hs
      subst hs
      have hdep : l.depth t = w.lock.depth t + 1 ∧ (∀ u, u ≠ t → l.depth u = w.lock.depth u) ∧
          ∀ o n, l = .held o n → 1 ≤ n := by
        unfold RLock.acquire at hl
        cases hw : w.lock with
        | free =>
          rw [hw] at hl
          simp only [Option.some.injEq] at hl
          subst hl
          refine ⟨by simp [RLock.depth], fun u hu => by simp [RLock.depth, Ne.symm hu], ?_⟩
          intro o n h
          cases h
          omega
        | held o n =>
          rw [hw] at hl
          dsimp only at hl
          split at hl
          · next ho =>
            simp only [Option.some.injEq] at hl
            subst hl ho
            refine ⟨by simp [RLock.depth], fun u hu => by simp [RLock.depth, Ne.symm hu], ?_⟩
            intro o n h
            cases h
            omega
          · simp at hl
      refine inv_put w _ t ⟨k, st⟩ hi rfl hdep.2.2 hdep.2.1 ⟨r, ?_, hst⟩
      show Typed k (l.depth t) r
      rw [hdep.1]
      generalize w.lock.depth t = d at ht
      cases ht with
      | acquire b _ hb => exact Typed.guarded b r hb
  | release k =>
    dsimp only at hs
    have hk : k = .ret 0 ∧ w.lock.depth t = r + 1 := by
      generalize w.lock.depth t = d at ht
      cases ht with
      | release _ => exact ⟨rfl, rfl⟩
    obtain ⟨rfl, hd⟩ := hk
    have hheld : ∃ n, w.lock = .held t n ∧ n = r + 1 := by
      unfold RLock.depth at hd
      cases hw : w.lock with
      | free => rw [hw] at hd; simp at hd
      | held o n =>
        rw [hw] at hd
        dsimp only at hd
        split at hd
        · next ho => exact ⟨n, by rw [ho], hd⟩
        · simp at hd
    obtain ⟨n, hw, rfl⟩ := hheld
    rw [hw] at hs
    simp only [RLock.release, if_true, Option.some.injEq] at hs
    subst hs
    refine inv_put w _ t ⟨.ret 0, st⟩ hi rfl ?_ ?_ ⟨r, ?_, hst⟩
    · intro o n h
      dsimp only at h
      split at h
      · simp at h
      · cases h; omega
    · intro u hu
      rw [hw]
      dsimp only
      split <;> simp [RLock.depth, Ne.symm hu]
    · dsimp only
      have : (if r + 1 ≤ 1 then RLock.free else RLock.held t (r + 1 - 1)).depth t = r := by
        split
        · simp only [RLock.depth]; omega
        · simp [RLock.depth]
      rw [this]
      exact .ret _ _
  | seq p k =>
    simp only [Option.some.injEq] at hs
    subst hs
    refine inv_put w _ t ⟨p, .seq k :: st⟩ hi rfl hi.pos (fun _ _ => rfl) ?_
    show ∃ r, Typed p (w.lock.depth t) r ∧ STyped (.seq k :: st) r
    generalize w.lock.depth t = d at ht
    cases ht with
    | seq _ _ _ hp hk => exact ⟨r, hp, .seq _ _ _ hk hst⟩
  | tryFinally p q =>
    simp only [Option.some.injEq] at hs
    subst hs
    refine inv_put w _ t ⟨p, .fin q :: st⟩ hi rfl hi.pos (fun _ _ => rfl) ?_
    show ∃ r, Typed p (w.lock.depth t) r ∧ STyped (.fin q :: st) r
    generalize w.lock.depth t = d at ht
    cases ht with
    | guarded _ n hb => exact ⟨r + 1, hb, .unlock _ _ hst⟩
    | tryFinally _ _ _ hp hq => exact ⟨r, hp, .fin _ _ _ hq hst⟩
  | tryExcept p h =>
    simp only [Option.some.injEq] at hs
    subst hs
    refine inv_put w _ t ⟨p, .except h :: st⟩ hi rfl hi.pos (fun _ _ => rfl) ?_
    show ∃ r, Typed p (w.lock.depth t) r ∧ STyped (.except h :: st) r
    generalize w.lock.depth t = d at ht
    cases ht with
    | tryExcept _ _ _ hp hh => exact ⟨r, hp, .except _ _ _ hh hst⟩

theorem runs_inv (w : World σ) (h : Runs w) : WInv w := by
  induction h with
  | start w hl ht =>
    refine ⟨fun o n h => by rw [hl] at h; simp at h, fun t => ⟨0, ?_⟩⟩
    rw [hl]
    exact typed_starting _ (ht t)
  | step w w' t _ hs ih => exact step_inv w w' t ih hs

theorem styped_mem (st : List (Frame σ)) (n : Nat) (h : STyped st n) (hm : Frame.fin unlock ∈ st) : 1 ≤ n := by
  induction h with
  | nil => simp at hm
  | unlock st n _ ih => omega
  | fin p st n hp hst ih =>
    rcases List.mem_cons.1 hm with h | h
    · cases h
      cases hp
    · exact ih h
  | seq k st n _ _ ih =>
    rcases List.mem_cons.1 hm with h | h
    · cases h
    · exact ih h
  | except k st n _ _ ih =>
    rcases List.mem_cons.1 hm with h | h
    · cases h
    · exact ih h
  | resume k st n _ ih =>
    rcases List.mem_cons.1 hm with h | h
    · cases h
    · exact ih h

theorem depth_pos (l : RLock) (t : Nat) (h : 1 ≤ l.depth t) : ∃ n, l = .held t n := by
  unfold RLock.depth at h
  cases l with
  | free => simp at h
  | held o n =>
    dsimp only at h
    split at h
    · next ho => exact ⟨n, by rw [ho]⟩
    · omega

end Bglib
