import Verif.Spec.SessionChanges
/-
C31, continued: deliveries in which handlers register and unregister.
-/
namespace Bglib
open Spec

variable {σ : Type}

private theorem drop_at {l : List Sub} {i : Nat} {x : Sub} (h : l[i]? = some x) :
    l = l.take i ++ x :: l.drop (i + 1) := by
  obtain ⟨hi, rfl⟩ := List.getElem?_eq_some_iff.1 h
  rw [← List.drop_eq_getElem_cons hi, List.take_append_drop]

private theorem deliver_sparing (h : Handlers σ) (name : Text) (got : Got) (hq : Sparing h name) :
    ∀ (fuel i : Nat) (s : Sess σ) (calls : List Call), (deliver h name got fuel i s calls).result = .ok () →
      (deliver h name got fuel i s calls).sess.subs.take i = s.subs.take i ∧
      (deliver h name got fuel i s calls).calls =
        calls ++ wanted h name got ((deliver h name got fuel i s calls).sess.subs.drop i) := by
  intro fuel
  induction fuel with
  | zero => intro i s calls hr; simp [deliver] at hr
  | succ fuel ih =>
    intro i s calls hr
    unfold deliver at hr ⊢
    cases hx : s.subs[i]? with
    | none =>
      have : s.subs.drop i = [] := List.drop_eq_nil_of_le (by simpa using hx)
      simp [this, wanted]
    | some x =>
      rw [hx] at hr
      dsimp only at hr ⊢
      have hi : i < s.subs.length := (List.getElem?_eq_some_iff.1 hx).1
      -- what is at place i stays there
      have key : ∀ (l m : List Sub), l[i]? = some x → m.take (i + 1) = l.take (i + 1) →
          m.take i = l.take i ∧ m.drop i = x :: m.drop (i + 1) := by
        intro l m hl hm
        have h1 : m[i]? = some x := by
          have := congrArg (fun k => k[i]?) hm
          simpa [List.getElem?_take, hl] using this
        refine ⟨?_, ?_⟩
        · have := congrArg (List.take i) hm
          simpa [List.take_take] using this
        · obtain ⟨hk, rfl⟩ := List.getElem?_eq_some_iff.1 h1
          exact List.drop_eq_getElem_cons hk
      cases hh : h x name with
      | none =>
        rw [hh] at hr
        dsimp only at hr ⊢
        obtain ⟨h1, h2⟩ := ih (i + 1) s calls hr
        obtain ⟨k1, k2⟩ := key _ _ hx h1
        refine ⟨k1, ?_⟩
        rw [h2, k2]
        simp [wanted, hh]
      | some f =>
        rw [hh] at hr
        dsimp only at hr ⊢
        obtain ⟨h1, b', h2⟩ := hq x f hh got s _ _ (drop_at hx)
        rcases hfr : f got s with ⟨a, s'⟩
        rw [hfr] at h1 h2 hr
        dsimp only at h1 h2 hr ⊢
        subst h1
        dsimp only at hr ⊢
        have hlen : (s.subs.take i).length = i := by simp; omega
        have ht : s'.subs.take i = s.subs.take i := by rw [h2, List.take_append_of_le_length (by omega),
          List.take_of_length_le (by omega)]
        have hxi : s'.subs[i]? = some x := by
          rw [h2, List.getElem?_append_right (by omega), hlen]; simp
        obtain ⟨h3, h4⟩ := ih (i + 1) s' (calls ++ [(x, name, got)]) hr
        obtain ⟨k1, k2⟩ := key _ _ hxi h3
        refine ⟨by rw [k1, ht], ?_⟩
        rw [h4, k2]
        simp [wanted, hh]

/-- **C31**, handlers that change the subscriptions behind them: if no handler unregisters its own
subscriber or one before it, those who are called are those registered at the end, each as often as
registered and in that order. -/
theorem C31_behind_partial (h : Handlers σ) (name : Text) (hq : Sparing h name) (got : Got) (s : Sess σ)
    (fuel : Nat) (hr : (dispatch h fuel name got s).result = .ok ()) :
    (dispatch h fuel name got s).calls = wanted h name got (dispatch h fuel name got s).sess.subs := by
  unfold dispatch at hr ⊢
  split at hr
  · simp at hr
  · next ht =>
    rw [if_neg ht]
    simpa using (deliver_sparing h name got hq fuel 0 s [] hr).2

private theorem count_erase {x y : Sub} (l : List Sub) (k : Nat) :
    ((l.erase x).drop k).count y ≤ (l.drop k).count y := by
  induction l generalizing k with
  | nil => simp
  | cons z r ih =>
    rw [List.erase_cons]
    split
    · cases k with
      | zero => simp only [List.drop_zero, List.count_cons]; omega
      | succ k =>
        rw [List.drop_succ_cons]
        exact ((List.drop_sublist_drop_left r (Nat.le_succ k))).count_le y
    · cases k with
      | zero =>
        have := ih 0
        simp only [List.drop_zero, List.count_cons] at this ⊢
        omega
      | succ k => simpa using ih k

private theorem count_changed {y : Sub} {l l' : List Sub} (hc : ChangedBut y l l') (k : Nat) :
    (l'.drop k).count y ≤ (l.drop k).count y := by
  induction hc with
  | refl => exact Nat.le_refl _
  | @add l' x hx _ ih =>
    refine Nat.le_trans ?_ ih
    rw [List.drop_append, List.count_append]
    have : (([x] : List Sub).drop (k - l'.length)).count y = 0 := by
      rw [List.count_eq_zero]
      intro hm
      have := List.mem_of_mem_drop hm
      simp at this
      exact hx this.symm
    omega
  | @remove l' x _ ih =>
    exact Nat.le_trans (count_erase l' k) ih

private theorem deliver_count (h : Handlers σ) (name : Text) (got : Got) (y : Sub) (hq : NeverAdds y h name) :
    ∀ (fuel i : Nat) (s : Sess σ) (calls : List Call),
      ((deliver h name got fuel i s calls).calls.map (·.1)).count y ≤
        (calls.map (·.1)).count y + (s.subs.drop i).count y := by
  intro fuel
  induction fuel with
  | zero => intro i s calls; simp [deliver]
  | succ fuel ih =>
    intro i s calls
    unfold deliver
    cases hx : s.subs[i]? with
    | none => simp
    | some x =>
      dsimp only
      obtain ⟨hi, e⟩ := List.getElem?_eq_some_iff.1 hx
      have hd : s.subs.drop i = x :: s.subs.drop (i + 1) := by rw [← e]; exact List.drop_eq_getElem_cons hi
      rw [hd, List.count_cons]
      cases hh : h x name with
      | none =>
        have := ih (i + 1) s calls
        dsimp only
        omega
      | some f =>
        have hc := count_changed (hq x f hh got s) (i + 1)
        dsimp only
        rcases hfr : f got s with ⟨a, s'⟩
        rw [hfr] at hc
        dsimp only at hc
        cases a with
        | error e => simp [List.count_cons]
        | ok u =>
          have := ih (i + 1) s' (calls ++ [(x, name, got)])
          simp only [List.map_append, List.map_cons, List.map_nil, List.count_append, List.count_cons,
            List.count_nil] at this ⊢
          omega

/-- **C31**, never too often: whatever handlers do, also if they raise, a subscriber whom they do not
register is called for a message at most as often as it was registered. -/
theorem C31_at_most (h : Handlers σ) (name : Text) (y : Sub) (hq : NeverAdds y h name) (got : Got) (s : Sess σ)
    (fuel : Nat) : ((dispatch h fuel name got s).calls.map (·.1)).count y ≤ s.subs.count y := by
  unfold dispatch
  split
  · simp
  · simpa using deliver_count h name got y hq fuel 0 s []

private theorem deliver_oneShot (h : Handlers σ) (name : Text) (got : Got) (hq : OneShot h name) :
    ∀ (fuel i : Nat) (s : Sess σ) (calls : List Call), s.subs.Nodup → s.subs.length - i < fuel →
      (deliver h name got fuel i s calls).result = .ok () ∧
      (deliver h name got fuel i s calls).sess.subs =
        s.subs.take i ++ passedOver (fun x => (h x name).isSome) (s.subs.drop i) ∧
      (deliver h name got fuel i s calls).calls =
        calls ++ (everySecond (fun x => (h x name).isSome) (s.subs.drop i)).map fun x => (x, name, got) := by
  intro fuel
  induction fuel with
  | zero => intro i s calls _ hf; omega
  | succ fuel ih =>
    intro i s calls hn hf
    unfold deliver
    cases hx : s.subs[i]? with
    | none =>
      have hl : s.subs.length ≤ i := by simpa using hx
      have : s.subs.drop i = [] := List.drop_eq_nil_of_le hl
      simp [this, everySecond, passedOver, List.take_of_length_le hl]
    | some x =>
      dsimp only
      obtain ⟨hi, e⟩ := List.getElem?_eq_some_iff.1 hx
      have hd : s.subs.drop i = x :: s.subs.drop (i + 1) := by rw [← e]; exact List.drop_eq_getElem_cons hi
      have ht : s.subs.take (i + 1) = s.subs.take i ++ [x] := by
        rw [List.take_add_one, hx]; rfl
      rw [hd, everySecond, passedOver]
      cases hh : h x name with
      | none =>
        obtain ⟨h1, h2, h3⟩ := ih (i + 1) s calls hn (by omega)
        dsimp only
        refine ⟨h1, ?_, ?_⟩
        · rw [h2, ht]; simp
        · rw [h3]; simp
      | some f =>
        obtain ⟨h1, h2⟩ := hq x f hh got s (List.mem_of_getElem? hx)
        rcases hfr : f got s with ⟨a, s'⟩
        rw [hfr] at h1 h2
        dsimp only at h1 h2 ⊢
        subst h1
        rw [hfr]
        dsimp only
        have hs : s'.subs = s.subs.take i ++ s.subs.drop (i + 1) := by
          have hs := drop_at hx
          have hnx : x ∉ s.subs.take i := by
            intro hm
            rw [hs] at hn
            exact (List.nodup_append.1 hn).2.2 x hm x (by simp) rfl
          rw [h2, hs, List.erase_append_right _ hnx, List.erase_cons_head, ← hs]
        have hlen : (s.subs.take i).length = i := by simp; omega
        have hn' : s'.subs.Nodup := h2 ▸ hn.erase x
        obtain ⟨h3, h4, h5⟩ := ih (i + 1) s' (calls ++ [(x, name, got)]) hn' (by
          rw [hs]; simp; omega)
        have hdr : s'.subs.drop (i + 1) = (s.subs.drop (i + 1)).tail := by
          rw [hs, List.drop_append, hlen, List.drop_eq_nil_of_le (by omega)]
          simp
        have htk : s'.subs.take (i + 1) = s.subs.take i ++ (s.subs.drop (i + 1)).take 1 := by
          rw [hs, List.take_append, hlen, List.take_of_length_le (by omega)]
          simp
        refine ⟨h3, ?_, ?_⟩
        · rw [h4, hdr, htk]; simp
        · rw [h5, hdr]; simp

/-- **C31**, handlers that are meant to be called once: if every handler unregisters its subscriber, every
second subscriber misses the message, and those who missed it are left. -/
theorem C31_one_shot (h : Handlers σ) (name : Text) (hq : OneShot h name) (got : Got) (s : Sess σ)
    (ht : s.termReq = false) (hn : s.subs.Nodup) (fuel : Nat) (hf : s.subs.length < fuel) :
    (dispatch h fuel name got s).result = .ok () ∧
    (dispatch h fuel name got s).sess.subs = passedOver (fun x => (h x name).isSome) s.subs ∧
    (dispatch h fuel name got s).calls =
      (everySecond (fun x => (h x name).isSome) s.subs).map fun x => (x, name, got) := by
  unfold dispatch
  rw [ht]
  simpa using deliver_oneShot h name got hq fuel 0 s [] hn (by omega)

/-- Not vacuous: subscriber 0 unregisters 1, who stands behind it, and registers 2. -/
example :
    let h : Handlers Unit := fun x _ => some fun _ s =>
      if x = 0 then (.ok (), { s with subs := s.subs.erase 1 ++ [2] }) else (.ok (), s)
    (dispatch h 9 t!"FIBS_Empty" (.text []) ⟨[0, 1, 3], true, false, false, ()⟩).calls.map (·.1) = [0, 3, 2] := by
  decide

/-- Not vacuous: of five subscribers with one-shot handlers, three are called and two are left; at the next
message one of these. -/
example :
    let h : Handlers Unit := fun x _ => some fun _ s => s.unregister [x]
    let d := dispatch h 9 t!"FIBS_Empty" (.text []) ⟨[0, 1, 2, 3, 4], true, false, false, ()⟩
    d.calls.map (·.1) = [0, 2, 4] ∧ d.sess.subs = [1, 3] ∧
    (dispatch h 9 t!"FIBS_Empty" (.text []) d.sess).calls.map (·.1) = [1] := by
  decide

/-- The handlers of the example are one-shot handlers. -/
example (name : Text) : OneShot (σ := Unit) (fun x _ => some fun _ s => s.unregister [x]) name := by
  intro x f hf got s hx
  cases Option.some.inj hf
  simp [Sess.unregister, hx]

end Bglib
