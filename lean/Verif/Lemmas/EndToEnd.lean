import Verif.Spec.EndToEnd
import Verif.Lemmas.Deliver
import Verif.Lemmas.Wire
import Verif.Props.Message
/-
Helper lemmas for C117.
-/
namespace Bglib
open Spec Telnet

variable {σ : Type}

/-- Lines, and then the end of the connection. -/
theorem listen_closed (h : Handlers σ) (hq : ∀ name, Quiet h name) (order : Phase → List Text) (ho : ValidOrder order) (fuel : Nat)
    (rounds : List (Round σ)) : ∀ (ts : List Text) (m : Monster) (s : Sess σ), (∀ r ∈ rounds, Undisturbed r) →
      (∀ r ∈ rounds, ∀ e, r.recv = .raised e → e = .eofError) →
      (rounds.map (·.recv)).map Message.of = ts.map .text ++ [.ended] → Reachable order m → Ready s fuel →
      (listen h order fuel rounds m s).ended = true ∧
      (listen h order fuel rounds m s).calls = wantedAll h order s.subs m ts ++ goodbyes h s.subs := by
  induction rounds with
  | nil => intro ts m s _ _ e; simp at e
  | cons r rs ih =>
    intro ts m s hu he e hm ⟨ha, ht, hf⟩
    cases hr : r.recv with
    | got nth t =>
      rw [List.map_cons, List.map_cons, hr, Message.of] at e
      cases ts with
      | nil => simp at e
      | cons x ts =>
        rw [List.map_cons, List.cons_append, List.cons.injEq] at e
        have hx : received nth t = x := by simpa using e.1
        obtain ⟨c, m', s', hmk, hm', e1, e2, e3, e4⟩ := listen_line h hq order ho fuel r rs nth t hr (hu r (by simp)) m hm s ha ht hf
        obtain ⟨i1, i2⟩ := ih ts m' s' (fun r hr => hu r (by simp [hr])) (fun r hr => he r (by simp [hr])) e.2 hm' ⟨e2, e3, by rw [e1]; exact hf⟩
        rw [e4]
        refine ⟨i1, ?_⟩
        rw [← hx]
        simp only [Listened.after, i2, e1, wantedAll, hmk, List.append_assoc]
    | raised er =>
      have hee := he r (by simp) er hr
      subst hee
      rw [List.map_cons, List.map_cons, hr, Message.of] at e
      cases ts with
      | cons x ts => simp at e
      | nil =>
        obtain ⟨b1, b2, b3, _⟩ := hu r (by simp) s
        obtain ⟨_, _, _, d1, d2, d3⟩ := hu r (by simp) (r.before s)
        rw [listen, if_pos (by rw [b2, ha]), hr]
        have hd := deliver_quiet h t!"EOFError" (.exc .eofError) (hq _) fuel 0 (r.during (r.before s)) [] (by rw [d1, b1]; omega)
        dsimp only [listenerExcept]
        refine ⟨rfl, ?_⟩
        rw [dispatch, if_neg (by rw [d3, b3, ht]; simp), hd.2.2.2.2, d1, b1]
        simp [wantedAll, goodbyes]

theorem reading_eof {closed : Bool} {packets : List Text} {rounds : List (Round σ)} (h : Reading closed packets rounds) :
    ∀ r ∈ rounds, ∀ e, r.recv = .raised e → e = .eofError := by
  intro r hr e he
  have := well closed h.1 r.recv (List.mem_map_of_mem hr)
  rw [he] at this
  exact this

/-- What is recognised now and what comes after. -/
theorem wantedAll_told (h : Handlers σ) (order : Phase → List Text) (subs : List Sub) (ph : Phase)
    (rest : List Text) (ls : List (Text × Text)) (hx : ∀ m, Reachable order m → m.phase = ph → ∀ x ∈ ls,
      (m.makeCookie order x.1).1 = .ok x.2 ∧ (m.makeCookie order x.1).2.phase = ph) :
    ∀ m, Reachable order m → m.phase = ph → ∃ m', Reachable order m' ∧ m'.phase = ph ∧
      wantedAll h order subs m (ls.map Prod.fst ++ rest) = told h subs ls ++ wantedAll h order subs m' rest := by
  induction ls with
  | nil => intro m hm hp; exact ⟨m, hm, hp, rfl⟩
  | cons x ls ih =>
    intro m hm hp
    obtain ⟨a, b⟩ := hx m hm hp x (by simp)
    obtain ⟨m', c1, c2, c3⟩ := ih (fun m hm hp y hy => hx m hm hp y (by simp [hy])) _ (.step m x.1 hm) b
    refine ⟨m', c1, c2, ?_⟩
    rw [List.map_cons, List.cons_append, wantedAll, a, c3]
    simp [told]

/-- One line that leads to another phase. -/
theorem wantedAll_step (h : Handlers σ) (order : Phase → List Text) (subs : List Sub) (m : Monster) (t c : Text) (rest : List Text)
    (a : (m.makeCookie order t).1 = .ok c) :
    wantedAll h order subs m (t :: rest) = wanted h c (.text t) subs ++ wantedAll h order subs (m.makeCookie order t).2 rest := by
  rw [wantedAll, a]

theorem wantedAll_login (h : Handlers σ) (order : Phase → List Text) (ho : ValidOrder order) (subs : List Sub)
    (rest ls : List Text) (hx : ∀ t ∈ ls, t ≠ t!"3" ∧ t ≠ t!"3\n") :
    ∀ m, Reachable order m → m.phase = .login → ∃ m', Reachable order m' ∧ m'.phase = .login ∧
      wantedAll h order subs m (ls ++ rest) = wantedAll h order subs m ls ++ wantedAll h order subs m' rest := by
  induction ls with
  | nil => intro m hm hp; exact ⟨m, hm, hp, rfl⟩
  | cons t ls ih =>
    intro m hm hp
    obtain ⟨c, hc, _⟩ := C30_answer order ho m hm t
    have hph : (m.makeCookie order t).2.phase = .login := by
      have h1 := C30_phase order ho m hm t c hc
      have h2 := mt (C30_begin order ho m hm hp t).1 (not_or.2 (hx t (by simp)))
      rw [hp] at h1
      dsimp only at h1
      split at h1
      · exact absurd h1 h2
      · exact h1
    obtain ⟨m', c1, c2, c3⟩ := ih (fun t ht => hx t (by simp [ht])) _ (.step m t hm) hph
    refine ⟨m', c1, c2, ?_⟩
    rw [List.cons_append, wantedAll, c3, wantedAll, List.append_assoc]

theorem clips_stay : ∀ x ∈ clips ++ gameTalk, x.2 ≠ t!"FIBS_Goodbye" := by decide +kernel

theorem talk_answer (order : Phase → List Text) (ho : ValidOrder order) (m : Monster) (hm : Reachable order m) (hp : m.phase = .run)
    (x : Text × Text) (hx : Talk x) : (m.makeCookie order x.1).1 = .ok x.2 ∧ (m.makeCookie order x.1).2.phase = .run := by
  obtain ⟨f, hf, hx⟩ := hx
  have a : (m.makeCookie order x.1).1 = .ok x.2 := by
    rcases hx with ⟨hx, hs⟩ | hx
    · exact C109_partial _ hx order ho m hm hp _ hf hs
    · exact C110_games _ hx order ho m hm hp _ hf
  refine ⟨a, ?_⟩
  have hg : x.2 ≠ t!"FIBS_Goodbye" := by
    refine clips_stay (f, x.2) ?_
    rcases hx with ⟨hx, _⟩ | hx
    · exact List.mem_append_left _ hx
    · exact List.mem_append_right _ hx
  have := C30_phase order ho m hm x.1 x.2 a
  rw [hp] at this
  dsimp only at this
  rw [if_neg hg] at this
  exact this

theorem prompt_answer (order : Phase → List Text) (ho : ValidOrder order) (m : Monster) (hm : Reachable order m) (hp : m.phase = .login) :
    (m.makeCookie order PROMPT).1 = .ok t!"FIBS_LoginPrompt" ∧ (m.makeCookie order PROMPT).2.phase = .login := by
  have hf : fitsOnly .login ([.words t!"login: "], t!"FIBS_LoginPrompt") = true := by decide +kernel
  have a := fitsOnly_sound _ _ hf order ho m hm hp PROMPT
    (.cons (.words t!"login: ") [] PROMPT [] rfl .nil)
  refine ⟨a, ?_⟩
  have := C30_phase order ho m hm PROMPT _ a
  rw [hp] at this
  exact this

theorem greeting_answer (order : Phase → List Text) (ho : ValidOrder order) (m : Monster) (hm : Reachable order m) (hp : m.phase = .login)
    (f : List Blank) (c : Text) (hf : (f, c) ∈ greetings) (t : Text) (ht : FilledIn f t) :
    (m.makeCookie order t).1 = .ok c ∧ (m.makeCookie order t).2.phase = (if c = t!"CLIP_MOTD_BEGIN" then .motd else .login) := by
  have a := C109_login _ hf order ho m hm hp t ht
  refine ⟨a, ?_⟩
  have := C30_phase order ho m hm t _ a
  rw [hp] at this
  exact this

theorem lines_written (ls : List Text) (r : Text) (h : ∀ l ∈ ls, ¬ Occurs CRLF l) :
    crlfLines (asLines ls ++ r) = (ls ++ (crlfLines r).1, (crlfLines r).2) := by
  induction ls with
  | nil => rfl
  | cons l ls ih =>
    have ih := ih fun x hx => h x (List.mem_cons_of_mem _ hx)
    unfold asLines at ih ⊢
    rw [List.flatMap_cons, List.append_assoc, lines_cut, cut_line (h l List.mem_cons_self)]
    simp only [ih]
    simp [CRLF]

end Bglib
