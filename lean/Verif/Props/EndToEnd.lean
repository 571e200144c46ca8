import Verif.Lemmas.EndToEnd
import Verif.Props.Telnet
import Verif.Props.Session
import Verif.Check.Fibs
/-
C117: what the handlers of a client are told is what the server said.
-/
namespace Bglib
open Spec Telnet

variable {σ : Type}

/-- **C117** (the part that holds): what a server says in a connection that it closes is told, line by line and once, to every
subscriber with a method for it, and then the end of the connection is; whatever the packets were.  Missing: "login: " (false,
C113_false; but C117_session), handlers that change the subscriptions or raise (false, C31_false). -/
theorem C117_closed_partial (h : Handlers σ) (hq : ∀ name, Quiet h name) (order : Phase → List Text) (ho : ValidOrder order)
    (m : Monster) (hm : Reachable order m) (s : Sess σ) (fuel : Nat) (hs : Ready s fuel) (packets : List Text)
    (hp : ¬ Occurs PROMPT (streamText packets)) (rounds : List (Round σ)) (hr : Reading true packets rounds) :
    (listen h order fuel rounds m s).ended = true ∧
    (listen h order fuel rounds m s).calls = wantedAll h order s.subs m (linesOf (streamText packets)) ++ goodbyes h s.subs := by
  refine listen_closed h hq order ho fuel rounds _ m s hr.2 (reading_eof hr) ?_ hm hs
  rw [(C113_lines_partial packets hp).1 _ hr.1]
  unfold wholeMessages linesOf
  split <;> simp

/-- While the connection is open the complete lines have been told, and the listener waits. -/
theorem C117_open_partial (h : Handlers σ) (hq : ∀ name, Quiet h name) (order : Phase → List Text) (ho : ValidOrder order)
    (m : Monster) (hm : Reachable order m) (s : Sess σ) (fuel : Nat) (hs : Ready s fuel) (packets : List Text)
    (hp : ¬ Occurs PROMPT (streamText packets)) (rounds : List (Round σ)) (hr : Reading false packets rounds) :
    (listen h order fuel rounds m s).ended = false ∧
    (listen h order fuel rounds m s).calls = wantedAll h order s.subs m (crlfLines (streamText packets)).1 := by
  have e := (C113_lines_partial packets hp).2 _ hr.1
  have hl : ∀ (rounds : List (Round σ)) (ts : List Text), (rounds.map (·.recv)).map Message.of = ts.map .text →
      (∀ r ∈ rounds, ∃ nth t, r.recv = .got nth t) ∧ rounds.map lineOf = ts := by
    intro rounds
    induction rounds with
    | nil => intro ts e; cases ts with
      | nil => simp
      | cons _ _ => simp at e
    | cons r rs ih =>
      intro ts e
      cases ts with
      | nil => simp at e
      | cons t ts =>
        simp only [List.map_cons, List.cons.injEq] at e
        obtain ⟨i1, i2⟩ := ih ts e.2
        cases hr : r.recv with
        | raised _ => rw [hr] at e; simp [Message.of] at e
        | got nth u =>
          rw [hr] at e
          refine ⟨?_, ?_⟩
          · intro x hx
            rcases List.mem_cons.1 hx with rfl | hx
            · exact ⟨nth, u, hr⟩
            · exact i1 x hx
          · rw [List.map_cons, i2, lineOf, hr]
            simpa [Message.of] using e.1
  obtain ⟨a, b⟩ := hl rounds _ e
  have := C31_stream_partial h hq order ho fuel rounds (fun r hr' => ⟨a r hr', hr.2 r hr'⟩) m hm s hs.1 hs.2.1 hs.2.2
  rw [b] at this
  exact this

/-- So neither the cutting into packets nor the commands of Telnet between matter to the handlers. -/
theorem C117_packets_partial (h : Handlers σ) (hq : ∀ name, Quiet h name) (order : Phase → List Text) (ho : ValidOrder order)
    (m : Monster) (hm : Reachable order m) (s : Sess σ) (fuel : Nat) (hs : Ready s fuel) (a b : List Text)
    (hab : streamText a = streamText b) (hp : ¬ Occurs PROMPT (streamText a)) (ra rb : List (Round σ)) (ha : Reading true a ra)
    (hb : Reading true b rb) : (listen h order fuel ra m s).calls = (listen h order fuel rb m s).calls := by
  rw [(C117_closed_partial h hq order ho m hm s fuel hs a hp ra ha).2,
    (C117_closed_partial h hq order ho m hm s fuel hs b (by rw [← hab]; exact hp) rb hb).2, hab]

/-- **C117**, a whole session: a new client at a server that writes a welcome, waits at its prompt, and then writes what the
interface for clients has for a login, and lines of that interface and about games.  Every line gets the cookie made for it. -/
theorem C117_session (h : Handlers σ) (hq : ∀ name, Quiet h name) (order : Phase → List Text) (ho : ValidOrder order)
    (s : Sess σ) (fuel : Nat) (hs : Ready s fuel) (l : Login) (hl : l.Ok) (talk : List (Text × Text)) (ht : ∀ x ∈ talk, Talk x)
    (hc : ∀ t ∈ l.before ++ (l.after ++ talk).map Prod.fst, ¬ Occurs CRLF t) (p1 p2 : List Text)
    (h1 : streamText p1 = asLines l.before ++ PROMPT)
    (h2 : streamText (p1 ++ p2) = asLines l.before ++ PROMPT ++ asLines ((l.after ++ talk).map Prod.fst))
    (hp : EndsInPrompt (asLines l.before ++ PROMPT)) (hn : ¬ Occurs PROMPT (asLines ((l.after ++ talk).map Prod.fst)))
    (rounds : List (Round σ)) (hr : Reading true (p1 ++ p2) rounds) :
    (listen h order fuel rounds .new s).ended = true ∧
    (listen h order fuel rounds .new s).calls =
      wantedAll h order s.subs .new l.before ++ wanted h t!"FIBS_LoginPrompt" (.text PROMPT) s.subs ++
        told h s.subs (l.after ++ talk) ++ goodbyes h s.subs := by
  have k := C113_prompt_partial p1 p2 _ _ h1 h2 hp hn _ hr.1
  have e1 : crlfLines (asLines l.before ++ PROMPT) = (l.before, PROMPT) := by
    rw [lines_written _ _ fun t ht => hc t (List.mem_append_left _ ht)]
    simp [crlfLines, PROMPT]
  have e2 : crlfLines (asLines ((l.after ++ talk).map Prod.fst)) = ((l.after ++ talk).map Prod.fst, []) := by
    have := lines_written _ [] fun t ht => hc t (List.mem_append_right _ ht)
    simpa [crlfLines] using this
  unfold wholeMessages at k
  rw [e1, e2] at k
  have g := listen_closed h hq order ho fuel rounds (l.before ++ PROMPT :: (l.after ++ talk).map Prod.fst) .new s hr.2 (reading_eof hr)
    (by rw [k]; simp) .new hs
  refine ⟨g.1, ?_⟩
  rw [g.2]
  congr 1
  obtain ⟨o1, ⟨fw, o2, o3⟩, ⟨fi, o4, o5⟩, o6⟩ := hl
  obtain ⟨m1, a1, a2, a3⟩ := wantedAll_login h order ho s.subs (PROMPT :: (l.after ++ talk).map Prod.fst) l.before o1 .new .new rfl
  rw [a3]
  obtain ⟨b1, b2⟩ := prompt_answer order ho m1 a1 a2
  rw [wantedAll_step _ _ _ _ _ _ _ b1]
  have r2 := Reachable.step (order := order) m1 PROMPT a1
  generalize (m1.makeCookie order PROMPT).2 = m2 at r2 b2
  rw [List.append_assoc]
  congr 2
  simp only [Login.after, List.cons_append, List.nil_append, List.map_cons, List.append_assoc, List.map_append]
  obtain ⟨c1, c2⟩ := greeting_answer order ho m2 r2 b2 fw _ o2 _ o3
  rw [wantedAll_step _ _ _ _ _ _ _ c1]
  have r3 := Reachable.step (order := order) m2 l.welcome r2
  rw [if_neg (by decide)] at c2
  generalize (m2.makeCookie order l.welcome).2 = m3 at r3 c2
  obtain ⟨d1, d2⟩ := greeting_answer order ho m3 r3 c2 fi _ o4 _ o5
  rw [wantedAll_step _ _ _ _ _ _ _ d1]
  have r4 := Reachable.step (order := order) m3 l.info r3
  rw [if_neg (by decide)] at d2
  generalize (m3.makeCookie order l.info).2 = m4 at r4 d2
  obtain ⟨f1, f2⟩ := greeting_answer order ho m4 r4 d2 [.words t!"3"] t!"CLIP_MOTD_BEGIN" (by simp [greetings]) t!"3"
    (.cons (.words t!"3") [] t!"3" [] rfl .nil)
  rw [wantedAll_step _ _ _ _ _ _ _ f1]
  have r5 := Reachable.step (order := order) m4 t!"3" r4
  rw [if_pos rfl] at f2
  generalize (m4.makeCookie order t!"3").2 = m5 at r5 f2
  obtain ⟨m6, q1, q2, q3⟩ := wantedAll_told h order s.subs .motd (t!"4" :: talk.map Prod.fst) (l.motd.map fun t => (t, t!"FIBS_MOTD"))
    (by
      intro m hm hp x hx
      obtain ⟨t, ht, rfl⟩ := List.mem_map.1 hx
      have := C30_motd order ho m hm hp t
      rw [if_neg (not_or.2 (o6 t ht)), if_neg (not_or.2 (o6 t ht))] at this
      exact this) m5 r5 f2
  rw [q3]
  obtain ⟨v1, v2⟩ := C30_motd order ho m6 q1 q2 t!"4"
  rw [if_pos (Or.inl rfl)] at v1 v2
  rw [wantedAll_step _ _ _ _ _ _ _ v1]
  have r7 := Reachable.step (order := order) m6 t!"4" q1
  generalize (m6.makeCookie order t!"4").2 = m7 at r7 v2
  obtain ⟨m8, w1, w2, w3⟩ := wantedAll_told h order s.subs .run [] talk
    (fun m hm hp x hx => talk_answer order ho m hm hp x (ht x hx)) m7 r7 v2
  rw [List.append_nil] at w3
  rw [w3]
  simp [told, wantedAll]

/-! ### Instances -/

/-- C117_closed_partial, C117_open_partial and C117_packets_partial have instances: a session with two listeners, and rounds that
read a line, cut in two ways. -/
example : Ready (⟨[1, 5, 0], true, false, false, ()⟩ : Sess Unit) 4 ∧ (∀ name, Quiet listeners name) ∧
    (∀ closed packets, ∃ rounds : List (Round Unit), Reading closed packets rounds) ∧
    streamText [t!"3\r", t!"\n"] = streamText [[IAC, WILL], ['\x01'] ++ t!"3\r\n"] ∧ ¬ Occurs PROMPT (streamText [t!"3\r", t!"\n"]) ∧
    wantedAll listeners Check.asWritten [1, 5, 0] .new (linesOf (streamText [t!"3\r", t!"\n"])) =
      [(1, t!"CLIP_MOTD_BEGIN", .text t!"3"), (0, t!"CLIP_MOTD_BEGIN", .text t!"3")] := by
  refine ⟨⟨rfl, rfl, by decide⟩, listeners_quiet, fun closed packets => ?_, by decide +kernel, (cut_none prompt_nil).1 (by decide +kernel),
    by decide +kernel⟩
  obtain ⟨rs, h, _⟩ := C113_total closed packets
  refine ⟨rs.map fun r => ⟨id, id, r⟩, ?_, ?_⟩
  · rw [List.map_map, show ((fun r : Round Unit => r.recv) ∘ fun r => ⟨id, id, r⟩) = id from rfl, List.map_id]
    exact h
  · intro r hr
    obtain ⟨x, _, rfl⟩ := List.mem_map.1 hr
    exact fun s => ⟨rfl, rfl, rfl, rfl, rfl, rfl⟩

def exampleLogin : Login :=
  ⟨[t!"WELCOME TO FIBS", []], t!"1 fred 1 x.org", t!"2 fred 1 1 0", [t!"+--+", t!"| hi |"]⟩

/-- C117_session has instances. -/
example : exampleLogin.Ok ∧ Talk (t!"6", t!"CLIP_WHO_END") ∧ Talk (t!"You roll 6 and 1.", t!"FIBS_YouRoll") ∧
    (∀ t ∈ exampleLogin.before ++ (exampleLogin.after ++ [(t!"6", t!"CLIP_WHO_END")]).map Prod.fst, ¬ Occurs CRLF t) ∧
    EndsInPrompt (asLines exampleLogin.before ++ PROMPT) ∧
    streamText [asLines exampleLogin.before ++ PROMPT] = asLines exampleLogin.before ++ PROMPT ∧
    ¬ Occurs PROMPT (asLines ((exampleLogin.after ++ [(t!"6", t!"CLIP_WHO_END")]).map Prod.fst)) := by
  refine ⟨⟨by decide, ?_, ?_, by decide⟩, ?_, ?_, ?_, well_prompt (b := []) (t := asLines exampleLogin.before ++ PROMPT) (by decide +kernel),
    by decide +kernel, (cut_none prompt_nil).1 (by decide +kernel)⟩
  · exact ⟨_, List.mem_cons_self, .cons _ _ t!"1 " _ rfl (.cons _ _ t!"fred" _ ⟨by decide, by decide⟩ (.cons _ _ t!" " _ rfl
      (.cons _ _ t!"1" _ ⟨by decide, by decide⟩ (.cons _ _ t!" " _ rfl (.cons _ _ t!"x.org" _ (by unfold Blank.takes; decide) .nil)))))⟩
  · exact ⟨_, List.mem_cons_of_mem _ List.mem_cons_self, .cons _ _ t!"2 " _ rfl (.cons _ _ t!"fred" _ ⟨by decide, by decide⟩ (.cons _ _ t!" " _ rfl
      (.cons _ _ t!"1" _ (Or.inr rfl) (.cons _ _ t!" " _ rfl (.cons _ _ t!"1" _ (Or.inr rfl)
        (.cons _ _ t!" 0" _ (by unfold Blank.takes; decide) .nil))))))⟩
  · refine ⟨[.words t!"6"], .cons (.words t!"6") [] t!"6" [] rfl .nil, Or.inl ⟨by decide +kernel, ?_⟩⟩
    rintro ⟨n, t, hn, _, e, w, hw, hp⟩
    cases n with
    | nil => exact hn rfl
    | cons c n =>
      have e' : n ++ t = [] := ((List.cons.inj e).2).symm
      obtain ⟨rfl, rfl⟩ := List.append_eq_nil_iff.1 e'
      have := List.prefix_nil.1 hp
      subst this
      revert hw
      decide
  · exact ⟨[.words t!"You roll ", .die, .words t!" and ", .die, .words t!"."], .cons _ _ t!"You roll " t!"6 and 1." rfl
      (.cons _ _ t!"6" t!" and 1." ⟨'6', rfl, by decide⟩ (.cons _ _ t!" and " t!"1." rfl
        (.cons _ _ t!"1" t!"." ⟨'1', rfl, by decide⟩ (.cons _ _ t!"." [] rfl .nil)))), Or.inr (by decide +kernel)⟩
  · have : ∀ t ∈ exampleLogin.before ++ (exampleLogin.after ++ [(t!"6", t!"CLIP_WHO_END")]).map Prod.fst, cutAfter CRLF t = none := by
      decide +kernel
    exact fun t ht => (cut_none crlf_nil).1 (this t ht)

end Bglib
