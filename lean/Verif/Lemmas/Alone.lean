import Verif.Spec.Alone
import Verif.Lemmas.Threads
/-
Programs that run uninterrupted.
-/
namespace Bglib
open Spec

variable {σ : Type}

theorem byItself_trans {t : Nat} {w w' w'' : World σ} (h : ByItself t w w') (h' : ByItself t w' w'') : ByItself t w w'' := by
  induction h with
  | refl => exact h'
  | step _ _ _ hs _ ih => exact .step _ _ _ hs (ih h')

theorem put_same (w : World σ) (t : Nat) (th : Thread σ) : (w.put t th).threads t = th := by simp [World.put]

theorem put_others (w : World σ) (t : Nat) (th : Thread σ) (u : Nat) (h : u ≠ t) : (w.put t th).threads u = w.threads u := by
  simp [World.put, h]

theorem alone_outcome (o : Py Nat) (s : Sess σ) : Alone (outcome o) s o s := by
  intro w t st h hs _
  exact ⟨w, .refl _, h, hs, rfl, fun _ _ => rfl⟩

theorem alone_ret (v : Nat) (s : Sess σ) : Alone (.ret v) s (.ok v) s := alone_outcome (.ok v) s

theorem alone_raise (e : PyErr) (s : Sess σ) : Alone (.raise e) s (.error e) s := alone_outcome (.error e) s

/-- One step, and then the rest. -/
theorem alone_step {p q : Prog σ} {s s1 s' : Sess σ} {o : Py Nat}
    (h : ∀ (w : World σ) (t : Nat) (st : List (Frame σ)), w.threads t = ⟨p, st⟩ → sessionOf w = s →
      ∃ w1, w.step t = some w1 ∧ w1.threads t = ⟨q, st⟩ ∧ sessionOf w1 = s1 ∧ w1.lock = w.lock ∧ ∀ u, u ≠ t → w1.threads u = w.threads u)
    (hq : Alone q s1 o s') : Alone p s o s' := by
  intro w t st h1 h2 h3
  obtain ⟨w1, e1, e2, e3, e4, e5⟩ := h w t st h1 h2
  obtain ⟨w', f1, f2, f3, f4, f5⟩ := hq w1 t st e2 e3 (by unfold CanLock; rw [e4]; exact h3)
  exact ⟨w', .step _ _ _ e1 f1, f2, f3, f4.trans e4, fun u hu => (f5 u hu).trans (e5 u hu)⟩

def Sess.flags (s : Sess σ) : Flags σ := ⟨s.active, s.termReq, s.terminated, s.rest⟩

def Sess.withFlags (s : Sess σ) (f : Flags σ) : Sess σ := ⟨s.subs, f.active, f.termReq, f.terminated, f.rest⟩

theorem alone_flags {f : Flags σ → Flags σ} {k : Flags σ → Prog σ} {s s' : Sess σ} {o : Py Nat}
    (h : Alone (k s.flags) (s.withFlags (f s.flags)) o s') : Alone (.flags f k) s o s' := by
  refine alone_step (fun w t st h1 h2 => ?_) h
  subst h2
  refine ⟨{ w.put t ⟨k w.flags, st⟩ with flags := f w.flags }, by rw [World.step, h1], ?_, rfl, rfl, fun u hu => ?_⟩
  · exact put_same _ _ _
  · exact put_others _ _ _ _ hu

theorem alone_subs {f : List Sub → List Sub} {k : List Sub → Prog σ} {s s' : Sess σ} {o : Py Nat}
    (h : Alone (k s.subs) { s with subs := f s.subs } o s') : Alone (.subs f k) s o s' := by
  refine alone_step (fun w t st h1 h2 => ?_) h
  subst h2
  refine ⟨{ w.put t ⟨k w.subs, st⟩ with subs := f w.subs }, by rw [World.step, h1], ?_, rfl, rfl, fun u hu => ?_⟩
  · exact put_same _ _ _
  · exact put_others _ _ _ _ hu

/-- Going to a frame. -/
theorem alone_frame {p q : Prog σ} {f : Frame σ} {s s1 s' : Sess σ} {o o' : Py Nat} (hp : Alone p s o s1)
    (hr : ∀ st, f.receive o st = ⟨q, st⟩) (hq : Alone q s1 o' s') (w : World σ) (t : Nat) (st : List (Frame σ))
    (h1 : w.threads t = ⟨p, f :: st⟩) (h2 : sessionOf w = s) (h3 : CanLock w t) :
    ∃ w', ByItself t w w' ∧ w'.threads t = ⟨outcome o', st⟩ ∧ sessionOf w' = s' ∧ w'.lock = w.lock ∧
      ∀ u, u ≠ t → w'.threads u = w.threads u := by
  obtain ⟨w1, e1, e2, e3, e4, e5⟩ := hp w t (f :: st) h1 h2 h3
  have hs : w1.step t = some (w1.put t (f.receive o st)) := by
    rw [World.step, e2]
    cases o <;> rfl
  obtain ⟨w', f1, f2, f3, f4, f5⟩ := hq (w1.put t (f.receive o st)) t st (by rw [put_same, hr]) e3 (by unfold CanLock; rw [show (w1.put t _).lock = w1.lock from rfl, e4]; exact h3)
  refine ⟨w', byItself_trans e1 (.step _ _ _ hs f1), f2, f3, f4.trans e4, fun u hu => ?_⟩
  rw [f5 u hu, put_others _ _ _ _ hu, e5 u hu]

theorem alone_seq {p : Prog σ} {k : Nat → Prog σ} {s s1 s' : Sess σ} {v : Nat} {o : Py Nat} (hp : Alone p s (.ok v) s1)
    (hk : Alone (k v) s1 o s') : Alone (.seq p k) s o s' := by
  intro w t st h1 h2 h3
  obtain ⟨w', f1, f2, f3, f4, f5⟩ := alone_frame (f := .seq k) hp (fun _ => rfl) hk (w.put t ⟨p, .seq k :: st⟩) t st (put_same _ _ _) h2 h3
  exact ⟨w', .step _ _ _ (by rw [World.step, h1]) f1, f2, f3, f4, fun u hu => by rw [f5 u hu, put_others _ _ _ _ hu]⟩

theorem alone_seq_error {p : Prog σ} {k : Nat → Prog σ} {s s1 : Sess σ} {e : PyErr} (hp : Alone p s (.error e) s1) :
    Alone (.seq p k) s (.error e) s1 := by
  intro w t st h1 h2 h3
  obtain ⟨w', f1, f2, f3, f4, f5⟩ := alone_frame (f := .seq k) hp (fun _ => rfl) (alone_raise e s1) (w.put t ⟨p, .seq k :: st⟩) t st (put_same _ _ _) h2 h3
  exact ⟨w', .step _ _ _ (by rw [World.step, h1]) f1, f2, f3, f4, fun u hu => by rw [f5 u hu, put_others _ _ _ _ hu]⟩

theorem alone_try_ok {p : Prog σ} {h : PyErr → Prog σ} {s s1 : Sess σ} {v : Nat} (hp : Alone p s (.ok v) s1) :
    Alone (.tryExcept p h) s (.ok v) s1 := by
  intro w t st h1 h2 h3
  obtain ⟨w', f1, f2, f3, f4, f5⟩ := alone_frame (f := .except h) hp (fun _ => rfl) (alone_ret v s1) (w.put t ⟨p, .except h :: st⟩) t st (put_same _ _ _) h2 h3
  exact ⟨w', .step _ _ _ (by rw [World.step, h1]) f1, f2, f3, f4, fun u hu => by rw [f5 u hu, put_others _ _ _ _ hu]⟩

theorem alone_try_error {p : Prog σ} {h : PyErr → Prog σ} {s s1 s' : Sess σ} {e : PyErr} {o : Py Nat} (hp : Alone p s (.error e) s1)
    (hh : Alone (h e) s1 o s') : Alone (.tryExcept p h) s o s' := by
  intro w t st h1 h2 h3
  obtain ⟨w', f1, f2, f3, f4, f5⟩ := alone_frame (f := .except h) hp (fun _ => rfl) hh (w.put t ⟨p, .except h :: st⟩) t st (put_same _ _ _) h2 h3
  exact ⟨w', .step _ _ _ (by rw [World.step, h1]) f1, f2, f3, f4, fun u hu => by rw [f5 u hu, put_others _ _ _ _ hu]⟩

/-- A synchronized method does what its body does. -/
theorem alone_synchronized {b : Prog σ} {s s' : Sess σ} {o : Py Nat} (h : Alone b s o s') : Alone (synchronized b) s o s' := by
  intro w t st h1 h2 h3
  obtain ⟨n, l, hl, hrel⟩ : ∃ n l, w.lock.acquire t = some l ∧ l = .held t (n + 1) ∧ l.release t = some w.lock := by
    rcases h3 with hl | ⟨n, hl⟩
    · exact ⟨0, _, by rw [hl]; rfl, rfl, by rw [hl]; simp [RLock.release]⟩
    · refine ⟨n + 1, _, by rw [hl]; simp [RLock.acquire], rfl, by rw [hl]; simp [RLock.release]⟩
  obtain ⟨rfl, hrel⟩ := hrel
  let w1 : World σ := { w.put t ⟨.tryFinally b unlock, st⟩ with lock := .held t (n + 1) }
  have hs1 : w.step t = some w1 := by
    rw [World.step, h1]
    simp only [synchronized]
    rw [hl]
  let w2 : World σ := w1.put t ⟨b, .fin unlock :: st⟩
  have hs2 : w1.step t = some w2 := by
    rw [World.step, show w1.threads t = ⟨.tryFinally b unlock, st⟩ from put_same _ _ _]
  obtain ⟨w3, e1, e2, e3, e4, e5⟩ := h w2 t (.fin unlock :: st) (put_same _ _ _) h2 (.inr ⟨n, rfl⟩)
  let w4 : World σ := w3.put t ⟨unlock, .resume o :: st⟩
  have hs3 : w3.step t = some w4 := by
    rw [World.step, e2]
    cases o <;> rfl
  let w5 : World σ := { w4.put t ⟨.ret 0, .resume o :: st⟩ with lock := w.lock }
  have hs4 : w4.step t = some w5 := by
    rw [World.step, show w4.threads t = ⟨unlock, .resume o :: st⟩ from put_same _ _ _]
    simp only [unlock]
    rw [show w4.lock = .held t (n + 1) from e4, hrel]
  let w6 : World σ := w5.put t ⟨outcome o, st⟩
  have hs5 : w5.step t = some w6 := by
    rw [World.step, show w5.threads t = ⟨.ret 0, .resume o :: st⟩ from put_same _ _ _]
    cases o <;> rfl
  refine ⟨w6, .step _ _ _ hs1 (.step _ _ _ hs2 (byItself_trans e1 (.step _ _ _ hs3 (.step _ _ _ hs4 (.step _ _ _ hs5 (.refl _)))))),
    put_same _ _ _, e3, rfl, fun u hu => ?_⟩
  have := e5 u hu
  simp only [w6, w5, w4, w2, w1, put_others _ _ _ _ hu] at this ⊢
  exact this

theorem alone_registerLoop (xs : List Sub) (s : Sess σ) : Alone (registerLoop xs) s (.ok 0) (s.register xs) := by
  induction xs generalizing s with
  | nil => exact alone_ret _ _
  | cons x xs ih => exact alone_subs (ih _)

theorem alone_unregisterLoop (xs : List Sub) (s : Sess σ) :
    Alone (unregisterLoop xs) s ((s.unregister xs).1.map fun _ => 0) (s.unregister xs).2 := by
  induction xs generalizing s with
  | nil => exact alone_ret _ _
  | cons x xs ih =>
    refine alone_subs ?_
    unfold Sess.unregister
    split
    · exact ih _
    · next hx =>
      have : s.subs.erase x = s.subs := List.erase_of_not_mem hx
      rw [this]
      exact alone_raise _ _

theorem alone_deliver {hp : HandlersP σ} {h : Handlers σ} {num : Got → Nat} (hh : SameHandlers hp h num) (name : Text) (got : Got) (fuel i : Nat)
    (s : Sess σ) (calls : List Call) (hd : (deliver h name got fuel i s calls).result ≠ .error .diverges) :
    ∃ v, Alone (deliverP hp name (num got) fuel i) s ((deliver h name got fuel i s calls).result.map fun _ => v)
      (deliver h name got fuel i s calls).sess := by
  induction fuel generalizing i s calls with
  | zero => exact absurd rfl hd
  | succ fuel ih =>
    unfold deliver at hd ⊢
    cases hi : s.subs[i]? with
    | none =>
      refine ⟨0, alone_subs ?_⟩
      simp only [hi]
      exact alone_ret 0 s
    | some x =>
      have hx := hh x name
      rw [hi] at hd
      dsimp only at hd ⊢
      cases h1 : h x name with
      | none =>
        cases h2 : hp x name with
        | some p => rw [h1, h2] at hx; exact hx.elim
        | none =>
          rw [h1] at hd
          obtain ⟨v, hv⟩ := ih (i + 1) s calls hd
          refine ⟨v, alone_subs ?_⟩
          simp only [id, hi, h2]
          exact hv
      | some f =>
        cases h2 : hp x name with
        | none => rw [h1, h2] at hx; exact hx.elim
        | some p =>
          rw [h1, h2] at hx
          obtain ⟨v, hv⟩ := hx got s
          rw [h1] at hd
          dsimp only at hd ⊢
          rcases hf : f got s with ⟨r, s1⟩
          rw [hf] at hv hd
          cases r with
          | ok a =>
            dsimp only at hd ⊢
            obtain ⟨v', hv'⟩ := ih (i + 1) s1 (calls ++ [(x, name, got)]) hd
            refine ⟨v', alone_subs ?_⟩
            simp only [id, hi, h2]
            exact alone_seq hv hv'
          | error e =>
            refine ⟨0, alone_subs ?_⟩
            simp only [id, hi, h2]
            exact alone_seq_error hv

/-- A step of a thread leaves the others. -/
theorem step_leaves {w w' : World σ} {t u : Nat} (hu : u ≠ t) (hs : w.step u = some w') : w'.threads t = w.threads t := by
  unfold World.step at hs
  rcases hth : w.threads u with ⟨cur, st⟩
  rw [hth] at hs
  have hu' := Ne.symm hu
  cases cur with
  | ret v => cases st <;> simp at hs; subst hs; exact put_others _ _ _ _ hu'
  | raise v => cases st <;> simp at hs; subst hs; exact put_others _ _ _ _ hu'
  | spin | flags _ _ | subs _ _ | seq _ _ | tryFinally _ _ | tryExcept _ _ => simp at hs; subst hs; exact put_others _ _ _ _ hu'
  | acquire k => dsimp only at hs; split at hs <;> simp at hs; subst hs; exact put_others _ _ _ _ hu'
  | release k => dsimp only at hs; split at hs <;> simp at hs <;> subst hs <;> exact put_others _ _ _ _ hu'

theorem within_runs {t : Nat} {st : List (Frame σ)} {w w' : World σ} (h : Runs w) (h' : Underway t st w w') : Runs w' := by
  induction h' with
  | refl => exact h
  | step w' w'' u _ _ hs ih => exact .step _ _ u ih hs

end Bglib
