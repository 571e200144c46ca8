import Verif.Lemmas.Sessions
import Verif.Props.Threads
/-
C120: sessions open at the same time do not disturb one another.
-/
namespace Bglib
open Spec Many

variable {ρ : Type}

/-- Of the state: what belongs to a session is changed by its own threads only, however threads take turns. -/
theorem C120_own (of : Nat → Nat) (w0 w w' : World (Sessions ρ)) (h0 : Opened of w0) (ts ts' : List Nat)
    (h : InTurn w0 ts w) (h' : InTurn w ts' w') (i : Nat) (hi : ∀ t ∈ ts', of t ≠ i) : ownOf w' i = ownOf w i :=
  (inTurn_aim h' (inTurn_aim h (opened_aim h0)).1).2 i hi

/-- Of the lock: it is the same for all sessions, so that never two threads are inside synchronized methods, not of
different sessions either; and as long as one is, every other thread that calls a synchronized method of any
session waits. -/
theorem C120_stalled (of : Nat → Nat) (w0 w : World (Sessions ρ)) (h0 : Opened of w0) (ts : List Nat)
    (h : InTurn w0 ts w) (t : Nat) (ht : Inside w t) : (∀ u, Inside w u → u = t) ∧
      ∀ u, u ≠ t → ∀ i (b : Prog ρ) st, w.threads u = ⟨aim i (synchronized b), st⟩ → w.step u = none := by
  have hi := inTurn_inv h (opened_inv h0)
  have holds : ∀ u, Inside w u → Holds w u := by
    intro u hu
    obtain ⟨r, h1, h2⟩ := hi.typed u
    have := styped_mem _ _ h2 hu
    have := h1.le
    exact depth_pos _ _ (by omega)
  obtain ⟨n, hl⟩ := holds t ht
  refine ⟨fun u hu => ?_, fun u hu i b st hb => ?_⟩
  · obtain ⟨m, hm⟩ := holds u hu
    rw [hl] at hm
    cases hm
    rfl
  · unfold World.step
    rw [hb]
    simp only [synchronized, aim, hl, RLock.acquire, if_neg (Ne.symm hu)]

private theorem turns_snoc : ∀ (ts : List Nat) (t : Nat) (u : World ρ), u.turns (ts ++ [t]) = (u.turns ts).bind (·.step t)
  | [], t, u => by cases h : u.step t <;> simp [World.turns, h]
  | s :: ts, t, u => by
    simp only [List.cons_append, World.turns]
    cases u.step s with
    | none => rfl
    | some v => exact turns_snoc ts t v

/-- Of a session whose threads alone take turns: everything is as if there were no other session. -/
theorem C120_alone (of : Nat → Nat) (i : Nat) (u : World ρ) (w w' : World (Sessions ρ)) (hs : SeenAs i u w)
    (h0 : ∀ t, of t = i → ∃ p, u.threads t = ⟨p, []⟩ ∧ w.threads t = ⟨aim i p, []⟩)
    (ts : List Nat) (hts : ∀ t ∈ ts, of t = i) (h : InTurn w ts w') :
    ∃ u', u.turns ts = some u' ∧ SeenAs i u' w' ∧ ∀ t, of t = i → (u'.step t).isSome = (w'.step t).isSome := by
  have : ∃ u', u.turns ts = some u' ∧ Along of i u' w' := by
    induction h with
    | none =>
      refine ⟨u, rfl, hs, fun t ht => ?_⟩
      obtain ⟨p, h1, h2⟩ := h0 t ht
      rw [h1, h2]
      rfl
    | more w1 w2 us t _ hstep ih =>
      obtain ⟨u1, e1, a1⟩ := ih fun s hs' => hts s (by simp [hs'])
      rcases along_step a1 t (hts t (by simp)) with ⟨u2, w2', e2, e3, a2⟩ | ⟨_, e3⟩
      · rw [hstep] at e3
        cases e3
        exact ⟨u2, by rw [turns_snoc, e1]; exact e2, a2⟩
      · rw [hstep] at e3
        cases e3
  obtain ⟨u', e, a⟩ := this
  refine ⟨u', e, a.seen, fun t ht => ?_⟩
  rcases along_step a t ht with ⟨u2, w2, e2, e3, _⟩ | ⟨e2, e3⟩ <;> rw [e2, e3] <;> rfl

/-- Whatever turns threads of other sessions take between, as long as these do not touch what is shared: the threads of session
`i` do what they could do as well if there were no other session, and whoever of them can go on could then go on, too.  So other
sessions can make a session wait, and nothing else. -/
theorem C120_between (of : Nat → Nat) (i : Nat) (u : World ρ) (w w' : World (Sessions ρ)) (hw : Opened of w) (hs : SeenAs i u w)
    (h0 : ∀ t, of t = i → w.threads t = ⟨aim i (u.threads t).cur, []⟩ ∧ (u.threads t).stack = [])
    (ts : List Nat) (h : Unmixed of i w ts w') :
    ∃ u', u.turns (ts.filter (of · = i)) = some u' ∧ ownOf w' i = ⟨u'.subs, u'.flags.active, u'.flags.termReq, u'.flags.terminated⟩ ∧
      w'.flags.rest.app = u'.flags.rest ∧ u'.lock = lockSeen of i w'.lock ∧
      ∀ t, of t = i → (w'.step t).isSome = true → (u'.step t).isSome = true := by
  have : (∀ t, ∃ th, w'.threads t = aimThread (of t) th) ∧
      ∃ u', u.turns (ts.filter (of · = i)) = some u' ∧ Along of i u' (seenFrom of i w') := by
    induction h with
    | none =>
      refine ⟨opened_aim hw, u, rfl, ⟨hs.own, hs.app, ?_⟩, fun t ht => ?_⟩
      · simp only [seenFrom, ← hs.lock, hw.1, lockSeen]
      · obtain ⟨h1, h2⟩ := h0 t ht
        simp only [seenFrom, h1, aimThread, h2, List.map_nil]
    | more w1 w2 us t _ hstep happ ih =>
      obtain ⟨ha, u1, e1, a1⟩ := ih
      obtain ⟨th, hth⟩ := ha t
      obtain ⟨g1, g2, g3⟩ := aim_step hth hstep
      refine ⟨fun v => ?_, ?_⟩
      · by_cases hv : v = t
        · rw [hv]; exact g1
        · rw [g2 v hv]; exact ha v
      by_cases ht : of t = i
      · rcases along_step a1 t ht with ⟨u2, w2', e2, e3, a2⟩ | ⟨_, e3⟩
        · rw [step_seen ht hstep] at e3
          cases e3
          refine ⟨u2, ?_, a2⟩
          rw [List.filter_append, List.filter_cons_of_pos (by simpa using ht), List.filter_nil, turns_snoc, e1]
          exact e2
        · rw [step_seen ht hstep] at e3
          cases e3
      · refine ⟨u1, ?_, ⟨?_, ?_, ?_⟩, fun v hv => ?_⟩
        · rw [List.filter_append, List.filter_cons_of_neg (by simpa using ht), List.filter_nil, List.append_nil, e1]
        · exact (g3 i (Ne.symm ht)).trans a1.seen.own
        · exact (happ ht).trans a1.seen.app
        · exact (lockSeen_other ht hstep).trans a1.seen.lock
        · exact (g2 v fun e => ht (e ▸ hv)).trans (a1.threads v hv)
  obtain ⟨_, u', e, a⟩ := this
  refine ⟨u', e, a.seen.own, a.seen.app, a.seen.lock.symm, fun t ht hst => ?_⟩
  obtain ⟨w2, e2⟩ := Option.isSome_iff_exists.1 hst
  rcases along_step a t ht with ⟨u2, w3, e3, _, _⟩ | ⟨_, e4⟩
  · rw [e3]; rfl
  · rw [step_seen ht e2] at e4
    cases e4

/-! ### Witness -/

namespace Many

/-- Waits until it has been told, looking `n` times and then not at all any more. -/
def waitP : Nat → Prog Bool
  | 0 => .spin
  | n + 1 => .flags id fun f => if f.rest then .ret 0 else waitP n

/-- The handlers of the first session wait. -/
def waiting (n : Nat) : HandlersP Bool := fun _ _ => some fun _ => waitP n

/-- The handlers of the second one tell them. -/
def telling : HandlersP Bool := fun _ _ => some fun _ => .flags (fun f => { f with rest := true }) fun _ => .ret 0

/-- Two open sessions with a subscriber each; both get messages. -/
def both (n : Nat) : World (Sessions Bool) where
  subs := []
  flags := ⟨false, false, false, ⟨fun _ => ⟨[0], true, false, false⟩, false⟩⟩
  lock := .free
  threads := fun t =>
    if t = 0 then ⟨aim 0 (listenerP (waiting n) id (fun _ => .ok (t!"m", 5)) 2), []⟩
    else if t = 1 then ⟨aim 1 (listenerP telling id (fun _ => .ok (t!"m", 5)) 2), []⟩
    else ⟨aim 0 (.ret 0), []⟩

/-- The session of a thread. -/
def bothOf (t : Nat) : Nat := if t = 1 then 1 else 0

end Many

private theorem wait_client : ∀ n, Client (waitP n)
  | 0 => .spin
  | n + 1 => .flags _ _ fun s => by
    split
    · exact .ret _
    · exact wait_client n

private theorem both_opened (n : Nat) : Opened bothOf (both n) := by
  refine ⟨rfl, fun t => ?_⟩
  by_cases h0 : t = 0
  · subst h0
    refine ⟨_, .listener (waiting n) id _ 2 ?_, rfl⟩
    intro x m p hp got
    cases hp
    exact wait_client n
  · by_cases h1 : t = 1
    · subst h1
      refine ⟨_, .listener telling id _ 2 ?_, rfl⟩
      intro x m p hp got
      cases hp
      exact .flags _ _ fun _ => .ret _
    · exact ⟨.ret 0, .client _ (.ret 0), by simp [both, bothOf, h0, h1]⟩

private theorem inTurn_cons {w w' w'' : World (Sessions ρ)} {t : Nat} {ts : List Nat} (hs : w.step t = some w')
    (h : InTurn w' ts w'') : InTurn w (t :: ts) w'' := by
  induction h with
  | none => exact .more w w _ [] t (.none w) hs
  | more a b us u _ hu ih => exact .more w a b (t :: us) u ih hu

private theorem inTurn_turns : ∀ (ts : List Nat) (w w' : World (Sessions ρ)), w.turns ts = some w' → InTurn w ts w'
  | [], w, w', h => by cases h; exact .none w
  | t :: ts, w, w', h => by
    simp only [World.turns, Option.bind_eq_some_iff] at h
    obtain ⟨a, h1, h2⟩ := h
    exact inTurn_cons h1 (inTurn_turns ts a w' h2)

/-- Thread 0 waits to be told inside a delivery, thread 1 waits for the lock. -/
private structure Stuck (w : World (Sessions Bool)) : Prop where
  lock : w.lock = .held 0 1
  waits : ∃ k st, w.threads 0 = ⟨aim 0 (waitP k), st⟩
  other : ∃ q st, w.threads 1 = ⟨.acquire q, st⟩
  rest : ∀ u, u ≠ 0 → u ≠ 1 → w.threads u = ⟨.ret 0, []⟩
  told : w.flags.rest.app = false

private theorem stuck_step {w w' : World (Sessions Bool)} {t : Nat} (h : Stuck w) (hs : w.step t = some w') : Stuck w' := by
  obtain ⟨hl, ⟨k, st, hk⟩, ⟨q, st1, hq⟩, hr, ht⟩ := h
  unfold World.step at hs
  by_cases h0 : t = 0
  · subst h0
    rw [hk] at hs
    cases k with
    | zero =>
      have hs := (Option.some.inj hs).symm
      subst hs
      exact ⟨hl, ⟨0, st, rfl⟩, ⟨q, st1, hq⟩, fun u hu hu1 => (if_neg hu).trans (hr u hu hu1), ht⟩
    | succ k =>
      have hs := (Option.some.inj hs).symm
      subst hs
      refine ⟨hl, ⟨k, st, ?_⟩, ⟨q, st1, hq⟩, fun u hu hu1 => (if_neg hu).trans (hr u hu hu1), ht⟩
      change (⟨aim 0 (if w.flags.rest.app = true then _ else _), st⟩ : Thread (Sessions Bool)) = _
      rw [ht]
      rfl
  · by_cases h1 : t = 1
    · subst h1
      rw [hq] at hs
      simp only [hl, RLock.acquire] at hs
      cases hs
    · rw [hr t h0 h1] at hs
      cases hs

/-- False: a handler of one session that waits for a message to another waits for ever, however often it looks and
however threads take turns from then on, though the other session has got the message.  Without a message to the first
session the second is told. -/
theorem C120_false (n : Nat) : ∃ (w0 w : World (Sessions Bool)) (ts : List Nat),
    Opened bothOf w0 ∧ InTurn w0 ts w ∧ w0.flags.rest.app = false ∧
    (∃ st, w.threads 0 = ⟨aim (bothOf 0) (waitP n), st⟩) ∧ bothOf 0 ≠ bothOf 1 ∧
    (∃ st, w.threads 1 = ⟨aim (bothOf 1) (dispatchP telling 1 t!"m" 5), st⟩) ∧
    (∀ ts' w', InTurn w ts' w' → w'.flags.rest.app = false) ∧
    ∃ w1, InTurn w0 (List.replicate 18 1) w1 ∧ w1.flags.rest.app = true := by
  obtain ⟨w, hw, hs, e0, e1⟩ : ∃ w, (both n).turns (List.replicate 12 1 ++ List.replicate 17 0) = some w ∧ Stuck w ∧
      (∃ st, w.threads 0 = ⟨aim (bothOf 0) (waitP n), st⟩) ∧
      ∃ st, w.threads 1 = ⟨aim (bothOf 1) (dispatchP telling 1 t!"m" 5), st⟩ := by
    refine ⟨_, rfl, ⟨rfl, ⟨n, _, rfl⟩, ⟨_, _, rfl⟩, fun u h0 h1 => ?_, rfl⟩, ⟨_, rfl⟩, ⟨_, rfl⟩⟩
    simp [World.put, both, aim, h0, h1]
  refine ⟨both n, w, _, both_opened n, inTurn_turns _ _ _ hw, rfl, e0, by decide, e1, ?_, ?_⟩
  · intro ts' w' h
    have : Stuck w' := by
      induction h with
      | none => exact hs
      | more a b us u _ hu ih => exact stuck_step ih hu
    exact this.told
  · exact ⟨_, inTurn_turns _ _ _ rfl, rfl⟩

/- Non-vacuity: a thread inside (C120_stalled), with another one that waits. -/
example : ∃ (w0 w : World (Sessions Bool)) (ts : List Nat), Opened bothOf w0 ∧ InTurn w0 ts w ∧ Inside w 0 ∧
    ∃ b st, w.threads 1 = ⟨aim 1 (synchronized b), st⟩ := by
  obtain ⟨w, hw, hi, b⟩ : ∃ w, (both 3).turns (List.replicate 12 1 ++ List.replicate 17 0) = some w ∧ Inside w 0 ∧
      ∃ b st, w.threads 1 = ⟨aim 1 (synchronized b), st⟩ :=
    ⟨_, rfl, by unfold Inside; exact List.mem_cons_of_mem _ (List.mem_cons_self ..), ⟨_, _, rfl⟩⟩
  exact ⟨both 3, w, _, both_opened 3, inTurn_turns _ _ _ hw, hi, b⟩

/- Non-vacuity: the second session alone takes turns until it has told (C120_alone). -/
example : ∃ (u : World Bool) (w' : World (Sessions Bool)), SeenAs 1 u (both 3) ∧
    (∀ t, bothOf t = 1 → ∃ p, u.threads t = ⟨p, []⟩ ∧ (both 3).threads t = ⟨aim 1 p, []⟩) ∧
    InTurn (both 3) (List.replicate 18 1) w' ∧ w'.flags.rest.app = true := by
  refine ⟨⟨[0], ⟨true, false, false, false⟩, .free, fun _ => ⟨listenerP telling id (fun _ => .ok (t!"m", 5)) 2, []⟩⟩, _,
    ⟨rfl, rfl, rfl⟩, fun t ht => ?_, inTurn_turns _ _ _ rfl, rfl⟩
  have : t = 1 := Decidable.byContradiction fun hn => by simp [bothOf, hn] at ht
  subst this
  exact ⟨_, rfl, rfl⟩

/- Non-vacuity: threads of both sessions take turns (C120_between, for the second session). -/
example : ∃ (u : World Bool) (w' : World (Sessions Bool)), Opened bothOf (both 3) ∧ SeenAs 1 u (both 3) ∧
    (∀ t, bothOf t = 1 → (both 3).threads t = ⟨aim 1 (u.threads t).cur, []⟩ ∧ (u.threads t).stack = []) ∧
    Unmixed bothOf 1 (both 3) [0, 1, 0, 1] w' := by
  refine ⟨⟨[0], ⟨true, false, false, false⟩, .free, fun _ => ⟨listenerP telling id (fun _ => .ok (t!"m", 5)) 2, []⟩⟩, _,
    both_opened 3, ⟨rfl, rfl, rfl⟩, fun t ht => ?_,
    .more _ _ _ [0, 1, 0] 1 (.more _ _ _ [0, 1] 0 (.more _ _ _ [0] 1 (.more _ _ _ [] 0 (.none _) rfl fun _ => rfl) rfl
      fun h => absurd rfl h) rfl fun _ => rfl) rfl fun h => absurd rfl h⟩
  have : t = 1 := Decidable.byContradiction fun hn => by simp [bothOf, hn] at ht
  subst this
  exact ⟨rfl, rfl⟩

end Bglib
