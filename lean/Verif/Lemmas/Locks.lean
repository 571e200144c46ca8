import Verif.Spec.Locks
/-
Threads with several locks.
-/
namespace Bglib
open Spec Locks

/-- Steps of a thread that has taken the locks `st`: what is taken is given back in the reverse order, and what is taken is
allowed by `ok`. -/
inductive Tidy (ok : List Lk → Lk → Prop) : List Lk → List Act → Prop where
  | nil : Tidy ok [] []
  | other (st r) : Tidy ok st r → Tidy ok st (.other :: r)
  | take (st l r) : ok st l → Tidy ok (l :: st) r → Tidy ok st (.take l :: r)
  | give (st l r) : Tidy ok st r → Tidy ok (l :: st) (.give l :: r)

theorem tidy_other {ok : List Lk → Lk → Prop} {st : List Lk} {r : List Act} (h : Tidy ok st (.other :: r)) : Tidy ok st r := by
  cases h; assumption

theorem tidy_take {ok : List Lk → Lk → Prop} {st : List Lk} {l : Lk} {r : List Act} (h : Tidy ok st (.take l :: r)) :
    ok st l ∧ Tidy ok (l :: st) r := by
  cases h; constructor <;> assumption

theorem tidy_give {ok : List Lk → Lk → Prop} {st : List Lk} {l : Lk} {r : List Act} (h : Tidy ok st (.give l :: r)) :
    ∃ st', st = l :: st' ∧ Tidy ok st' r := by
  cases h; exact ⟨_, rfl, by assumption⟩

theorem acts_tidy {r : List Act} : ∀ (c : Code) (st : List Lk), Tidy (fun _ _ => True) st r →
    Tidy (fun _ _ => True) st (c.acts ++ r)
  | .done, _, h => h
  | .other c, st, h => .other _ _ (acts_tidy c st h)
  | .session b c, st, h => by
    have h1 := acts_tidy c st h
    have h2 := Tidy.give st .session _ h1
    have h3 := acts_body b .session st h2
    simp only [Code.acts, synchronized, List.cons_append, List.append_assoc, List.nil_append]
    exact .take _ _ _ trivial h3
  | .own i b c, st, h => by
    have h1 := acts_tidy c st h
    have h2 := Tidy.give st (.subscriber i) _ h1
    have h3 := acts_body b (.subscriber i) st h2
    simp only [Code.acts, synchronized, List.cons_append, List.append_assoc, List.nil_append]
    exact .take _ _ _ trivial h3
where
  acts_body {r : List Act} (b : Code) (l : Lk) (st : List Lk) (h : Tidy (fun _ _ => True) (l :: st) r) :
      Tidy (fun _ _ => True) (l :: st) (b.acts ++ r) := acts_tidy b (l :: st) h

/-- What `InOrder` allows. -/
def Allowed (n : Nat) (st : List Lk) (l : Lk) : Prop := lockRank l ≤ n ∧ (l ∈ st ∨ ∀ m ∈ st, lockRank m < lockRank l)

theorem acts_ordered {n : Nat} {st : List Lk} {c : Code} (h : InOrder n st c) : ∀ {r : List Act}, Tidy (Allowed n) st r →
    Tidy (Allowed n) st (c.acts ++ r) := by
  induction h with
  | done => exact fun h => h
  | other ls c _ ih => exact fun h => .other _ _ (ih h)
  | session ls b c hl _ _ ih1 ih2 =>
    intro r h
    simp only [Code.acts, synchronized, List.cons_append, List.append_assoc, List.nil_append]
    refine .take _ _ _ ⟨Nat.zero_le _, ?_⟩ (ih1 (.give _ _ _ (ih2 h)))
    rcases hl with hl | hl
    · exact .inl hl
    · subst hl
      exact .inr fun m hm => by cases hm
  | own ls i b c hi hl _ _ ih1 ih2 =>
    intro r h
    simp only [Code.acts, synchronized, List.cons_append, List.append_assoc, List.nil_append]
    exact .take _ _ _ ⟨hi, hl⟩ (ih1 (.give _ _ _ (ih2 h)))

/-- How often thread `t` has taken `l`. -/
def times (s : State) (l : Lk) (t : Nat) : Nat :=
  match s.held l with
  | some (o, k) => if o = t then k else 0
  | none => 0

/-- The locks are held by those who have taken them. -/
structure LInv (ok : List Lk → Lk → Prop) (S : Nat → List Lk) (s : State) : Prop where
  tidy : ∀ t, Tidy ok (S t) (s.rest t)
  times : ∀ t l, (S t).count l = times s l t
  pos : ∀ l o k, s.held l = some (o, k) → 0 < k

theorem step_linv {ok : List Lk → Lk → Prop} {S : Nat → List Lk} {s s' : State} {t : Nat} (h : LInv ok S s)
    (hs : s.step t = some s') : ∃ S', LInv ok S' s' := by
  obtain ⟨h1, h2, h3⟩ := h
  have ht := h1 t
  unfold State.step at hs
  cases hr : s.rest t with
  | nil => rw [hr] at hs; cases hs
  | cons a r =>
    rw [hr] at hs ht
    cases a with
    | other =>
      have hs := (Option.some.inj hs).symm
      subst hs
      have ht := tidy_other ht
      refine ⟨S, fun u => ?_, h2, h3⟩
      dsimp only
      split
      · rename_i e; rw [e]; exact ht
      · exact h1 u
    | take l =>
      have ht := (tidy_take ht).2
      have put : ∀ u, Tidy ok (if u = t then l :: S t else S u) (if u = t then r else s.rest u) := by
        intro u
        split
        · exact ht
        · exact h1 u
      refine ⟨fun u => if u = t then l :: S t else S u, ?_⟩
      dsimp only at hs
      cases hl : s.held l with
      | none =>
        rw [hl] at hs
        have hs := (Option.some.inj hs).symm
        subst hs
        refine ⟨put, fun u m => ?_, fun m o k hm => ?_⟩
        · have := h2 u m
          have h2t := h2 t m
          dsimp only [times] at this h2t ⊢
          by_cases hu : u = t
          · subst hu
            by_cases hm : m = l
            · subst hm
              rw [hl] at h2t
              simp [h2t]
            · simp only [↓reduceIte, if_neg hm]
              rw [← h2t, List.count_cons_of_ne (Ne.symm hm)]
          · rw [if_neg hu, this]
            by_cases hm : m = l
            · subst hm
              rw [hl]
              simp [Ne.symm hu]
            · rw [if_neg hm]
        · dsimp only at hm
          split at hm
          · cases hm; exact Nat.one_pos
          · exact h3 m o k hm
      | some p =>
        obtain ⟨o, k⟩ := p
        rw [hl] at hs
        dsimp only at hs
        split at hs
        · rename_i ho
          subst ho
          have hs := (Option.some.inj hs).symm
          subst hs
          refine ⟨put, fun u m => ?_, fun m o' k' hm => ?_⟩
          · have := h2 u m
            have h2t := h2 o m
            dsimp only [times] at this h2t ⊢
            by_cases hu : u = o
            · subst hu
              by_cases hm : m = l
              · subst hm
                rw [hl] at h2t
                simp only [if_pos rfl] at h2t
                simp [h2t]
              · simp only [↓reduceIte, if_neg hm]
                rw [← h2t, List.count_cons_of_ne (Ne.symm hm)]
            · rw [if_neg hu, this]
              by_cases hm : m = l
              · subst hm
                rw [hl]
                simp [Ne.symm hu]
              · rw [if_neg hm]
          · dsimp only at hm
            split at hm
            · cases hm; omega
            · exact h3 m o' k' hm
        · cases hs
    | give l =>
      obtain ⟨st, hst, htt⟩ := tidy_give ht
      have hc := h2 t l
      rw [hst, List.count_cons_self] at hc
      cases hl : s.held l with
      | none => simp only [times, hl] at hc; omega
      | some p =>
        obtain ⟨o, k⟩ := p
        simp only [times, hl] at hc
        by_cases ho : o = t
        · subst ho
          rw [if_pos rfl] at hc
          simp only [hl, ↓reduceIte] at hs
          have hs := (Option.some.inj hs).symm
          subst hs
          refine ⟨fun u => if u = o then st else S u, fun u => ?_, fun u m => ?_, fun m o' k' hm => ?_⟩
          · dsimp only
            split
            · exact htt
            · exact h1 u
          · have := h2 u m
            dsimp only [times] at this ⊢
            by_cases hu : u = o
            · subst hu
              by_cases hm : m = l
              · subst hm
                by_cases hk : k ≤ 1
                · simp only [↓reduceIte, if_pos hk]; omega
                · simp only [↓reduceIte, if_neg hk]; omega
              · simp only [↓reduceIte, if_neg hm]
                rw [hst, List.count_cons_of_ne (Ne.symm hm)] at this
                exact this
            · rw [if_neg hu, this]
              by_cases hm : m = l
              · subst hm
                by_cases hk : k ≤ 1
                · simp only [hl, ↓reduceIte, if_pos hk, if_neg (Ne.symm hu)]
                · simp only [hl, ↓reduceIte, if_neg hk, if_neg (Ne.symm hu)]
              · rw [if_neg hm]
          · dsimp only at hm
            split at hm
            · split at hm
              · cases hm
              · cases hm; omega
            · exact h3 m o' k' hm
        · rw [if_neg ho] at hc; omega

theorem arises_linv {ok : List Lk → Lk → Prop} {c : Nat → Code} (hc : ∀ t, Tidy ok [] (c t).acts) {s : State} (h : Arises c s) :
    ∃ S, LInv ok S s := by
  induction h with
  | start => exact ⟨fun _ => [], hc, fun _ _ => rfl, fun l o k h => by cases h⟩
  | turn s s' t _ hs ih =>
    obtain ⟨S, hi⟩ := ih
    exact step_linv hi hs

theorem tidy_count {ok : List Lk → Lk → Prop} {st : List Lk} {r : List Act} (h : Tidy ok st r) (l : Lk) :
    r.count (.give l) = r.count (.take l) + st.count l := by
  induction h with
  | nil => rfl
  | other st r _ ih => simpa [List.count_cons] using ih
  | take st m r _ _ ih =>
    by_cases hm : m = l
    · subst hm
      simp [List.count_cons] at ih ⊢
      omega
    · simp [List.count_cons, hm] at ih ⊢
      omega
  | give st m r _ ih =>
    by_cases hm : m = l
    · subst hm
      simp [List.count_cons] at ih ⊢
      omega
    · simp [List.count_cons, hm] at ih ⊢
      omega

/-- A thread that cannot take its turn has ended or waits for a lock that another thread has. -/
theorem step_none {s : State} {t : Nat} (hs : s.step t = none) :
    s.rest t = [] ∨ ∃ l r o k, s.rest t = .take l :: r ∧ s.held l = some (o, k) ∧ o ≠ t := by
  unfold State.step at hs
  cases hr : s.rest t with
  | nil => exact .inl rfl
  | cons a r =>
    rw [hr] at hs
    cases a with
    | other => cases hs
    | take l =>
      dsimp only at hs
      cases hl : s.held l with
      | none => rw [hl] at hs; cases hs
      | some p =>
        obtain ⟨o, k⟩ := p
        rw [hl] at hs
        dsimp only at hs
        split at hs
        · cases hs
        · rename_i ho
          exact .inr ⟨l, r, o, k, rfl, hl, ho⟩
    | give l =>
      dsimp only at hs
      cases hl : s.held l with
      | none => rw [hl] at hs; cases hs
      | some p =>
        obtain ⟨o, k⟩ := p
        rw [hl] at hs
        dsimp only at hs
        split at hs <;> cases hs

/-- Somebody can go on: the one who has a lock, or somebody who has one that comes later. -/
theorem owner_goes {n : Nat} {S : Nat → List Lk} {s : State} (h : LInv (Allowed n) S s) : ∀ (d : Nat) (l : Lk) (o k : Nat),
    n - lockRank l = d → lockRank l ≤ n → s.held l = some (o, k) → ∃ u, (s.step u).isSome = true := by
  intro d
  induction d using Nat.strongRecOn with
  | ind d ih =>
    intro l o k hd hn hl
    cases hs : s.step o with
    | some s' => exact ⟨o, by rw [hs]; rfl⟩
    | none =>
      have hk := h.pos l o k hl
      have hc := h.times o l
      simp only [times, hl, ↓reduceIte] at hc
      have hm : l ∈ S o := List.count_pos_iff.1 (by omega)
      have ht := h.tidy o
      rcases step_none hs with hr | ⟨m, r, o', k', hr, hm', ho⟩
      · rw [hr] at ht
        generalize S o = st at ht hm
        cases ht
        cases hm
      · rw [hr] at ht
        have ha := (tidy_take ht).1
        have hc' := h.times o m
        simp only [times, hm', if_neg ho] at hc'
        have hnm : m ∉ S o := List.count_eq_zero.1 hc'
        have hlt := ha.2.resolve_left hnm l hm
        have := ha.1
        exact ih (n - lockRank m) (by omega) m o' k' rfl ha.1 hm'

/-- What a turn does: it shortens what its thread has left, and changes a lock only if that is free or the thread's own. -/
theorem step_some {s s' : State} {t : Nat} (hs : s.step t = some s') :
    (s'.rest t).length < (s.rest t).length ∧ (∀ u, u ≠ t → s'.rest u = s.rest u) ∧
      ∀ l u k, u ≠ t → s.held l = some (u, k) → s'.held l = some (u, k) := by
  unfold State.step at hs
  cases hr : s.rest t with
  | nil => rw [hr] at hs; cases hs
  | cons a r =>
    rw [hr] at hs
    cases a with
    | other =>
      cases hs
      refine ⟨by simp, fun u hu => by simp [hu], fun l u k _ h => h⟩
    | take l =>
      dsimp only at hs
      cases hl : s.held l with
      | none =>
        rw [hl] at hs
        cases hs
        refine ⟨by simp, fun u hu => by simp [hu], fun m u k _ h => ?_⟩
        have : m ≠ l := fun e => by rw [e, hl] at h; cases h
        simpa [this] using h
      | some p =>
        obtain ⟨o, n⟩ := p
        rw [hl] at hs
        dsimp only at hs
        split at hs
        · rename_i ho
          cases hs
          refine ⟨by simp, fun u hu => by simp [hu], fun m u k hu h => ?_⟩
          have : m ≠ l := fun e => by rw [e, hl] at h; cases h; exact hu ho
          simpa [this] using h
        · cases hs
    | give l =>
      dsimp only at hs
      cases hl : s.held l with
      | none =>
        rw [hl] at hs
        cases hs
        refine ⟨by simp, fun u hu => by simp [hu], fun m u k _ h => h⟩
      | some p =>
        obtain ⟨o, n⟩ := p
        rw [hl] at hs
        dsimp only at hs
        split at hs
        · rename_i ho
          cases hs
          refine ⟨by simp, fun u hu => by simp [hu], fun m u k hu h => ?_⟩
          have : m ≠ l := fun e => by rw [e, hl] at h; cases h; exact hu ho
          simpa [this] using h
        · cases hs
          refine ⟨by simp, fun u hu => by simp [hu], fun m u k _ h => h⟩

theorem waits_none {s : State} {t u : Nat} (h : Waits s t u) : s.step t = none := by
  obtain ⟨hne, l, r, k, h1, h2⟩ := h
  unfold State.step
  rw [h1]
  dsimp only
  rw [h2]
  dsimp only
  rw [if_neg hne]

/-- A turn leaves a circle alone. -/
theorem circle_step {s s' : State} {t : Nat} {C : List Nat} (hC : Circle s C) (hs : s.step t = some s') :
    Circle s' C ∧ ∀ u ∈ C, s'.rest u = s.rest u := by
  obtain ⟨h1, h2, h3⟩ := step_some hs
  have hne : ∀ u ∈ C, u ≠ t := by
    intro u hu e
    obtain ⟨v, _, hw⟩ := hC.2 u hu
    rw [e] at hw
    rw [waits_none hw] at hs
    cases hs
  refine ⟨⟨hC.1, fun u hu => ?_⟩, fun u hu => h2 u (hne u hu)⟩
  obtain ⟨v, hv, hvu, l, r, k, hr, hl⟩ := hC.2 u hu
  exact ⟨v, hv, hvu, l, r, k, by rw [h2 u (hne u hu)]; exact hr, h3 l v k (hne v hv) hl⟩

theorem left_same {s s' : State} {t : Nat} (h : ∀ u, u ≠ t → s'.rest u = s.rest u) : ∀ n, n ≤ t → stepsLeft s' n = stepsLeft s n
  | 0, _ => rfl
  | n + 1, hn => by
    simp only [stepsLeft]
    rw [left_same h n (by omega), h n (by omega)]

theorem left_step {s s' : State} {t : Nat} (hs : s.step t = some s') : ∀ n, t < n → stepsLeft s' n < stepsLeft s n
  | 0, h => by omega
  | n + 1, h => by
    obtain ⟨h1, h2, _⟩ := step_some hs
    simp only [stepsLeft]
    by_cases e : n = t
    · subst e
      have := left_same h2 n (Nat.le_refl n)
      omega
    · have := left_step hs n (by omega)
      rw [h2 n e]
      omega

/-- Threads that had nothing to do have nothing to do later. -/
theorem arises_rest {c : Nat → Code} {s : State} (h : Arises c s) {t : Nat} (ht : c t = .done) : s.rest t = [] := by
  induction h with
  | start => simp [State.start, ht, Code.acts]
  | turn s s' u _ hs ih =>
    obtain ⟨h1, h2, _⟩ := step_some hs
    by_cases e : t = u
    · subst e
      rw [ih] at h1
      simp at h1
    · rw [h2 t e]; exact ih

theorem arises_reaches {c : Nat → Code} {s s' : State} {k : Nat} (h : Arises c s) (hr : Reaches s s' k) : Arises c s' := by
  induction hr with
  | here => exact h
  | turn s' s'' t k _ hs ih => exact .turn _ _ t ih hs

theorem reaches_first {s s' s'' : State} {t k : Nat} (hs : s.step t = some s') (h : Reaches s' s'' k) : Reaches s s'' (k + 1) := by
  induction h with
  | here => exact .turn _ _ t 0 .here hs
  | turn a b u k _ hb ih => exact .turn _ _ u _ ih hb

/-- Who has a lock has something left to do. -/
theorem owner_rest {ok : List Lk → Lk → Prop} {S : Nat → List Lk} {s : State} (h : LInv ok S s) {l : Lk} {o k : Nat}
    (hl : s.held l = some (o, k)) : s.rest o ≠ [] := by
  intro hr
  have hk := h.pos l o k hl
  have hc := h.times o l
  simp only [times, hl, ↓reduceIte] at hc
  have hm : l ∈ S o := List.count_pos_iff.1 (by omega)
  have ht := h.tidy o
  rw [hr] at ht
  generalize S o = st at ht hm
  cases ht
  cases hm

end Bglib
