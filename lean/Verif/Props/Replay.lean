import Verif.Model.Replay
/-
C85: recorded sessions are played as they were recorded.
-/
namespace Bglib
open Replay

/-- **C85** (what holds) If each line is taken as a whole the client gets the file.  Missing: see
`C85_false_send`. -/
theorem C85_served_partial (takes : List Nat) (lines : List Text)
    (h : ∀ p ∈ takes.zip lines, p.2.length ≤ p.1) : serve takes lines = lines.flatten := by
  induction lines generalizing takes with
  | nil => cases takes <;> rfl
  | cons l ls ih =>
    cases takes with
    | nil => rw [serve, ih [] (by simp)]; rfl
    | cons k ks =>
      rw [serve, ih ks (fun p hp => h p (by rw [List.zip_cons_cons]; exact List.mem_cons_of_mem _ hp)),
        List.take_of_length_le (h (k, l) (by simp))]
      rfl

example : serve [100, 3, 7] [t!"ab\n", t!"cd\n"] = t!"ab\ncd\n" := by decide

/-- **C85** is false if the socket takes a part of a line: the rest of it is lost, and nothing else. -/
theorem C85_false_send (k : Nat) (ks : List Nat) (l : Text) (ls : List Text) :
    serve (k :: ks) (l :: ls) = l.take k ++ serve ks ls ∧
    (k < l.length → (∀ p ∈ ks.zip ls, p.2.length ≤ p.1) → serve (k :: ks) (l :: ls) ≠ (l :: ls).flatten) := by
  refine ⟨rfl, fun hk h e => ?_⟩
  rw [serve, C85_served_partial ks ls h, List.flatten_cons] at e
  have := congrArg List.length e
  rw [List.length_append, List.length_append, List.length_take] at this
  omega

example : serve [2] [t!"ab\n", t!"cd\n"] = t!"abcd\n" := by decide

/-- How many of the calls are questions with a pulse since the question before. -/
def Replay.steps : Bool → List Call → Nat
  | _, [] => 0
  | _, .pulse :: cs => steps true cs
  | p, .ask _ :: cs => (if p then 1 else 0) + steps false cs

/-- **C85** In single steps a scenario gives its lines in their order, one for each question that has a pulse before it
(pulses without a question between them count once). -/
theorem C85_single (s : Scenario) (cs : List Call) (hf : s.fired = true) (ha : s.auto = false)
    (hn : steps s.pulsed cs ≤ s.lines.length) : (s.run cs).1 = s.lines.take (steps s.pulsed cs) := by
  induction cs generalizing s with
  | nil => rw [Scenario.run, steps, List.take_zero]
  | cons c cs ih =>
    cases c with
    | pulse => exact ih { s with pulsed := true } hf ha hn
    | ask now =>
      rw [Scenario.run]
      unfold Scenario.getLine Scenario.expired
      rw [hf, ha]
      cases hp : s.pulsed
      · rw [hp] at hn
        simp only [steps, Bool.false_eq_true, if_false, Nat.zero_add, Bool.and_false] at hn ⊢
        rw [ih s hf ha (by rw [hp]; exact hn), hp]
      · rw [hp] at hn
        simp only [steps, if_true, Bool.and_true, Bool.false_eq_true, if_false] at hn ⊢
        cases hl : s.lines with
        | nil => rw [hl] at hn; simp at hn
        | cons l ls =>
          rw [hl, List.length_cons] at hn
          have := ih { s with lines := ls, pulsed := false } hf ha (by change steps false cs ≤ ls.length; omega)
          rw [Nat.add_comm 1, List.take_succ_cons]
          rw [hf, ha] at this
          exact congrArg (l :: ·) this

example : (Scenario.run { lines := [t!"a\n", t!"b\n"], fired := true, last := 0 }
    [.ask 0, .pulse, .pulse, .ask 1, .ask 2, .pulse, .ask 3]).1 = [t!"a\n", t!"b\n"] := by decide

/-- **C85** A scenario that has not been started gives nothing. -/
theorem C85_idle (s : Scenario) (cs : List Call) (hf : s.fired = false) : (s.run cs).1 = [] := by
  induction cs generalizing s with
  | nil => rfl
  | cons c cs ih =>
    cases c with
    | pulse => exact ih { s with pulsed := true } hf
    | ask now =>
      rw [Scenario.run]
      unfold Scenario.getLine
      rw [hf]
      exact ih s hf

example : (Scenario.run { lines := [t!"a\n"], last := 0 } [.pulse, .ask 1]).1 = [] := by decide

/-- **C85** is false of automatic steps: the comparison is the wrong way round and the time of the last line is not
kept.  Until the interval is over every question is answered, however soon, and afterwards none. -/
theorem C85_false_auto (s : Scenario) (now : Nat) (hf : s.fired = true) (ha : s.auto = true) (hl : s.last ≤ now) :
    (s.getLine now).1 = if now < s.last + s.interval then some (s.lines.headD []) else none := by
  unfold Scenario.getLine Scenario.expired
  rw [hf, ha]
  by_cases h : now < s.last + s.interval
  · rw [if_pos h, if_pos (by simp; omega)]
  · rw [if_neg h, if_neg (by simp; omega)]

example : (Scenario.run { lines := [t!"a\n", t!"b\n"], fired := true, auto := true, interval := 1000, last := 0 }
    [.ask 0, .ask 0, .ask 5000]).1 = [t!"a\n", t!"b\n"] := by decide

/-- **C85** is false of starting by what the other side says: asking a scenario for its trigger is a `NameError`. -/
theorem C85_false_trigger (s : Scenario) : s.trigger = .error .nameError := rfl

/-- **C85** is false of the window: it never accepts a connection, since `poll` answers numbers and the window compares
them with its socket.  The window stays as it is; the first file ready to be read is an `AttributeError` and the first
one ready to be written a `NameError`. -/
theorem C85_false_window (fd conn : Nat) (rs : List (Nat × Nat)) :
    ((Window.mk none []).start fd).poller conn rs =
      match rs.find? (fun r => r.2 % 2 = 1 ∨ r.2 / 4 % 2 = 1) with
      | none => .ok ⟨some (.socket fd), [fd]⟩
      | some r => if r.2 % 2 = 1 then .error .attributeError else .error .nameError := by
  change Window.poller conn ⟨some (.socket fd), [fd]⟩ rs = _
  induction rs with
  | nil => rfl
  | cons r rs ih =>
    obtain ⟨n, e⟩ := r
    rw [Window.poller]
    unfold Window.handle Handle.recv
    rw [if_neg (by simp)]
    by_cases h1 : e % 2 = 1
    · simp [h1]
    · by_cases h2 : e / 4 % 2 = 1
      · simp [h1, h2]
      · rw [if_neg h1, if_neg h2, List.find?_cons_of_neg (by simp [h1, h2])]
        exact ih

/-- A client connects: the listening socket is ready to be read. -/
example : ((Window.mk none []).start 5).poller 6 [(5, 1)] = .error .attributeError := by decide

/-- **C85** is false of the program as a whole: polling cannot be started; without `rfile` and `wfile`, which nothing
sets, each poll is an `AttributeError`; and with them, and whatever else has been set, it is one as soon as a scenario
has been added, whatever the other side says. -/
theorem C85_false_app (a : App) (now : Nat) (line : Text) :
    a.startPolling = .error .attributeError ∧
    (a.connected = false → a.onPoll now line = .error .attributeError) ∧
    (∀ read then' name a', a.add read then' name = .ok a' → a'.onPoll now line = .error .attributeError) := by
  refine ⟨rfl, fun h => by simp [App.onPoll, h], fun read then' name a' h => ?_⟩
  unfold App.add at h
  cases e : read name with
  | none => rw [e] at h; cases h
  | some ls =>
    rw [e] at h
    have h := (Except.ok.inj h).symm
    subst h
    simp [App.onPoll]

/-- A file is added, and the server greets. -/
example : ∃ a', (App.mk [] true (some [])).add (fun _ => some [t!"login"]) 0 t!"one" = .ok a' ∧
    a'.onPoll 50 t!"login: " = .error .attributeError :=
  ⟨_, rfl, (C85_false_app _ 50 _).2.2 _ _ _ _ (show (App.mk [] true (some [])).add (fun _ => some [t!"login"]) 0 t!"one" = _ from rfl)⟩

private theorem active_lines (now : Nat) : ∀ ss : List Scenario,
    (activeLines now ss).1 = (ss.filterMap fun s => (s.getLine now).1).filter (fun l => l ≠ []) ∧
    (activeLines now ss).2 = ss.map fun s => (s.getLine now).2
  | [] => ⟨rfl, rfl⟩
  | s :: ss => by
    obtain ⟨h1, h2⟩ := active_lines now ss
    rw [activeLines]
    rcases e : s.getLine now with ⟨_ | l, s'⟩
    · simp [e, h1, h2]
    · cases l <;> simp [e, h1, h2]

/-- With the connection and a list of active scenarios set by a caller and no scenario added, each poll writes the lines
the scenarios have to give, in the order of the scenarios, without empty ones.  Missing: what `C85_false_app` says. -/
theorem C85_active_partial (a : App) (now : Nat) (line : Text) (ss : List Scenario) (h1 : a.connected = true)
    (h2 : a.scenarios = []) (h3 : a.actives = some ss) :
    a.onPoll now line = .ok ((ss.filterMap fun s => (s.getLine now).1).filter (fun l => l ≠ []),
      { a with actives := some (ss.map fun s => (s.getLine now).2) }) := by
  simp [App.onPoll, h1, h2, h3, (active_lines now ss).1, (active_lines now ss).2]

/-- Two scenarios have a line, one waits and one is at its end. -/
example : ((App.mk [] true (some [⟨[t!"a"], true, false, 0, 0, true⟩, ⟨[t!"b"], true, false, 0, 0, false⟩,
    ⟨[], true, false, 0, 0, true⟩, ⟨[t!"c", t!"d"], true, false, 0, 0, true⟩])).onPoll 9 t!"x").map (·.1) =
    .ok [t!"a", t!"c"] := by decide

end Bglib
