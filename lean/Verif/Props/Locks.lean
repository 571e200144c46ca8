import Verif.Lemmas.Locks
/-
C122: threads with the locks of sessions and of subscribers never wait for one another for ever.
-/
namespace Bglib
open Spec Locks

/-- Never are two threads inside methods synchronized with the same lock, whatever they do. -/
theorem C122_exclusive (c : Nat → Code) (s : State) (h : Arises c s) (l : Lk) (t u : Nat) (ht : Between s t l)
    (hu : Between s u l) : t = u := by
  obtain ⟨S, hi⟩ := arises_linv (ok := fun _ _ => True) (fun t => by
    have := acts_tidy (c t) [] (.nil (ok := fun _ _ => True))
    rwa [List.append_nil] at this) h
  have key : ∀ v, Between s v l → ∃ k, s.held l = some (v, k) := by
    intro v hv
    unfold Between at hv
    have h1 := tidy_count (hi.tidy v) l
    have h2 := hi.times v l
    cases hl : s.held l with
    | none => simp only [times, hl] at h2; omega
    | some p =>
      obtain ⟨o, k⟩ := p
      simp only [times, hl] at h2
      by_cases ho : o = v
      · exact ⟨k, by rw [ho]⟩
      · rw [if_neg ho] at h2; omega
  obtain ⟨k, hk⟩ := key t ht
  obtain ⟨k', hk'⟩ := key u hu
  rw [hk] at hk'
  cases hk'
  rfl

/-- If locks are taken in their order, then as long as some thread has not ended, one can go on.  Missing: other orders
(C122_false). -/
theorem C122_progress_partial (n : Nat) (c : Nat → Code) (hc : ∀ t, InOrder n [] (c t)) (s : State) (h : Arises c s) (t : Nat)
    (ht : s.rest t ≠ []) : ∃ u, (s.step u).isSome = true := by
  obtain ⟨S, hi⟩ := arises_linv (ok := Allowed n) (fun t => by
    have := acts_ordered (hc t) (.nil (ok := Allowed n))
    rwa [List.append_nil] at this) h
  cases hs : s.step t with
  | some s' => exact ⟨t, by rw [hs]; rfl⟩
  | none =>
    rcases step_none hs with hr | ⟨l, r, o, k, hr, hl, _⟩
    · exact absurd hr ht
    · have hti := hi.tidy t
      rw [hr] at hti
      exact owner_goes hi _ l o k rfl (tidy_take hti).1.1 hl

/-- So it is with what the library has itself: handlers and applications that use sessions in any way, and `nop`. -/
theorem C122_library (n : Nat) (c : Nat → Code) (hc : ∀ t, NopOnly n (c t)) (s : State) (h : Arises c s) (t : Nat)
    (ht : s.rest t ≠ []) : ∃ u, (s.step u).isSome = true := by
  have key : ∀ {d : Code}, NopOnly n d → ∀ ls : List Lk, (∀ l ∈ ls, l = .session) → InOrder n ls d := by
    intro d hd
    induction hd with
    | done => exact fun ls _ => .done ls
    | other c _ ih => exact fun ls hl => .other ls c (ih ls hl)
    | session b c _ _ ih1 ih2 =>
      intro ls hl
      refine .session ls b c ?_ (ih1 _ fun l hm => ?_) (ih2 ls hl)
      · cases ls with
        | nil => exact .inr rfl
        | cons l ls => exact .inl (by rw [hl l (by simp)]; simp)
      · rcases List.mem_cons.1 hm with hm | hm
        · exact hm
        · exact hl l hm
    | nop i c hi _ ih =>
      intro ls hl
      refine .own ls i .done c hi (.inr fun l hm => ?_) (.done _) (ih ls hl)
      rw [hl l hm]
      exact Nat.succ_pos i
  exact C122_progress_partial n c (fun t => key (hc t) [] fun l hm => by cases hm) s h t ht

/-- If locks are taken in their order by finitely many threads, then from every state they can all come to their ends, and all
locks are free then. -/
theorem C122_finish_partial (n N : Nat) (c : Nat → Code) (hN : ∀ t, N ≤ t → c t = .done) (hc : ∀ t, InOrder n [] (c t)) (s : State)
    (h : Arises c s) : ∃ s' k, Reaches s s' k ∧ (∀ t, s'.rest t = []) ∧ ∀ l, s'.held l = none := by
  generalize hm : stepsLeft s N = m
  induction m using Nat.strongRecOn generalizing s with
  | ind m ih =>
    by_cases he : ∀ t, s.rest t = []
    · refine ⟨s, 0, .here, he, fun l => ?_⟩
      obtain ⟨S, hi⟩ := arises_linv (ok := fun _ _ => True) (fun t => by
        have := acts_tidy (c t) [] (.nil (ok := fun _ _ => True))
        rwa [List.append_nil] at this) h
      cases hl : s.held l with
      | none => rfl
      | some p => exact absurd (he p.1) (owner_rest hi hl)
    · obtain ⟨t, ht⟩ := Classical.not_forall.1 he
      obtain ⟨u, hu⟩ := C122_progress_partial n c hc s h t ht
      obtain ⟨s1, hs⟩ := Option.isSome_iff_exists.1 hu
      have hlt : u < N := by
        refine Nat.lt_of_not_le fun hle => ?_
        have h0 := arises_rest h (hN u hle)
        have h1 := (step_some hs).1
        rw [h0] at h1
        simp at h1
      obtain ⟨s', k, hr, h1, h2⟩ := ih _ (by have := left_step hs N hlt; omega) s1 (.turn _ _ u h hs) rfl
      exact ⟨s', k + 1, reaches_first hs hr, h1, h2⟩

/-- Whatever finitely many threads do, in any order, they take no more turns than they have steps: nobody waits by going
round and round. -/
theorem C122_bound (N : Nat) (c : Nat → Code) (hN : ∀ t, N ≤ t → c t = .done) (s : State) (k : Nat)
    (h : Reaches (.start c) s k) : stepsLeft s N + k ≤ stepsLeft (.start c) N := by
  induction h with
  | here => exact Nat.le_refl _
  | turn s' s'' t k hr hs ih =>
    have ha := arises_reaches .start hr
    have hlt : t < N := by
      refine Nat.lt_of_not_le fun hle => ?_
      have h0 := arises_rest ha (hN t hle)
      have h1 := (step_some hs).1
      rw [h0] at h1
      simp at h1
    have := left_step hs N hlt
    omega

/-- Whatever finitely many threads do: if nobody can go on and a thread has not ended, it is in a circle of threads that wait
for one another. -/
theorem C122_stuck (N : Nat) (c : Nat → Code) (hN : ∀ t, N ≤ t → c t = .done) (s : State) (h : Arises c s)
    (hs : ∀ u, s.step u = none) (t : Nat) (ht : s.rest t ≠ []) : ∃ C, t ∈ C ∧ Circle s C := by
  obtain ⟨S, hi⟩ := arises_linv (ok := fun _ _ => True) (fun t => by
    have := acts_tidy (c t) [] (.nil (ok := fun _ _ => True))
    rwa [List.append_nil] at this) h
  have hlt : ∀ u, s.rest u ≠ [] → u < N := fun u hu => Nat.lt_of_not_le fun hle => hu (arises_rest h (hN u hle))
  have hmem : ∀ u, s.rest u ≠ [] → u ∈ (List.range N).filter fun u => !(s.rest u).isEmpty := by
    intro u hu
    simp only [List.mem_filter, List.mem_range, Bool.not_eq_true', List.isEmpty_eq_false_iff]
    exact ⟨hlt u hu, hu⟩
  refine ⟨(List.range N).filter fun u => !(s.rest u).isEmpty, hmem t ht, List.ne_nil_of_mem (hmem t ht), fun u hu => ?_⟩
  have hu' : s.rest u ≠ [] := by
    simp only [List.mem_filter, Bool.not_eq_true', List.isEmpty_eq_false_iff] at hu
    exact hu.2
  rcases step_none (hs u) with hr | ⟨l, r, o, k, hr, hl, ho⟩
  · exact absurd hr hu'
  · exact ⟨o, hmem o (owner_rest hi hl), ho, l, r, k, hr, hl⟩

/-- A circle never ends: whatever the others do, its threads wait where they are. -/
theorem C122_forever (s : State) (C : List Nat) (hC : Circle s C) (s' : State) (k : Nat) (h : Reaches s s' k) :
    Circle s' C ∧ ∀ t ∈ C, s'.rest t = s.rest t ∧ s'.step t = none := by
  have key : Circle s' C ∧ ∀ t ∈ C, s'.rest t = s.rest t := by
    induction h with
    | here => exact ⟨hC, fun _ _ => rfl⟩
    | turn s' s'' t k _ hs ih =>
      obtain ⟨h1, h2⟩ := circle_step ih.1 hs
      exact ⟨h1, fun u hu => (h2 u hu).trans (ih.2 u hu)⟩
  refine ⟨key.1, fun t ht => ⟨key.2 t ht, ?_⟩⟩
  obtain ⟨u, _, hw⟩ := key.1.2 t ht
  exact waits_none hw

/-- A subscriber whose methods are synchronized with its own lock, as `nop` is: thread 0 delivers a message to it, thread 1
calls another of its methods, which sends a line. -/
def Locks.crossed : Nat → Code
  | 0 => dispatched (.own 0 (.other .done) .done) .done
  | 1 => .own 0 (.other (sendLine .done)) .done
  | _ => .done

/-- False of subscribers that use their lock so: the threads come to a state in which both have something left to do and
nobody can go on. -/
theorem C122_false : ∃ s, Arises crossed s ∧ (∀ u, s.step u = none) ∧ s.rest 0 ≠ [] ∧ s.rest 1 ≠ [] := by
  refine ⟨_, .turn _ _ 1 (.turn _ _ 1 (.turn _ _ 0 (.turn _ _ 0 .start rfl) rfl) rfl) rfl, fun u => ?_, by decide, by decide⟩
  match u with
  | 0 => rfl
  | 1 => rfl
  | u + 2 => rfl

/- Non-vacuity: a thread inside (C122_exclusive); code in order that is not only `nop` (C122_progress_partial); a delivery
with `nop` (C122_library). -/
example : ∃ s, Arises crossed s ∧ Between s 0 .session :=
  ⟨_, .turn _ _ 0 .start rfl, by unfold Between; decide⟩

example : ∀ t, InOrder 1 [] (if t = 0 then dispatched (.own 0 (.other .done) .done) .done else sendLine .done) := by
  intro t
  split
  · exact .session _ _ _ (.inr rfl) (.other _ _ (.own _ _ _ _ (by decide) (.inr (by decide)) (.other _ _ (.done _)) (.done _))) (.done _)
  · exact .session _ _ _ (.inr rfl) (.other _ _ (.done _)) (.done _)

example : ∀ t, NopOnly 1 (if t = 0 then dispatched (nop 0 (sendLine .done)) .done else nop 0 .done) := by
  intro t
  split
  · exact .session _ _ (.other _ (.nop _ _ (by decide) (.session _ _ (.other _ .done) .done))) .done
  · exact .nop _ _ (by decide) .done

/- A circle comes about (C122_stuck, C122_forever); threads that end (C122_finish_partial, C122_bound). -/
example : ∃ s, Arises crossed s ∧ Circle s [0, 1] := by
  refine ⟨_, .turn _ _ 1 (.turn _ _ 1 (.turn _ _ 0 (.turn _ _ 0 .start rfl) rfl) rfl) rfl, by decide, fun t ht => ?_⟩
  simp only [List.mem_cons, List.not_mem_nil, or_false] at ht
  rcases ht with rfl | rfl
  · exact ⟨1, by decide, by decide, _, _, 1, rfl, rfl⟩
  · exact ⟨0, by decide, by decide, _, _, 1, rfl, rfl⟩

example : (∀ t, 2 ≤ t → crossed t = .done) ∧ stepsLeft (.start crossed) 2 = 12 := by
  refine ⟨fun t ht => ?_, by decide⟩
  match t, ht with
  | t + 2, _ => rfl

example : ∀ t, InOrder 1 [] (if t < 2 then dispatched (.own 0 (sendLine .done) .done) .done else .done) := by
  intro t
  split
  · exact .session _ _ _ (.inr rfl) (.other _ _ (.own _ _ _ _ (by decide) (.inr (by decide))
      (.session _ _ _ (.inl (by decide)) (.other _ _ (.done _)) (.done _)) (.done _))) (.done _)
  · exact .done _

end Bglib
