import Verif.Spec.Replayed
import Verif.Props.EndToEnd
import Verif.Props.Replay
/-
C118: a recorded session reaches a client line by line.
-/
namespace Bglib
open Spec Telnet Replay

variable {σ : Type}

private theorem joined {s : Conn} {rs : List Recv} (h : Receives true s rs) : ∀ (ps : List Text) (r : Text), PartsOf s.left ps r →
    ¬ Occurs CRLF s.left → rs.map Message.of = (ps ++ if r = [] then [] else [r]).map .text ++ [.ended] := by
  induction h with
  | waits h => exact absurd (expect_waits h).2.2 (by decide)
  | raised h =>
    intro ps r hp _
    have e := hp.1
    rw [(expect_raised h).1] at e
    obtain ⟨e1, rfl⟩ := List.append_eq_nil_iff.1 e.symm
    cases ps with
    | nil => rfl
    | cons p ps =>
      obtain ⟨⟨u, hu⟩, _⟩ := hp.2.1 p (by simp)
      rw [hu] at e1
      simp [PROMPT] at e1
  | @got s s' n a rs h hr ih =>
    intro ps r hp hc
    obtain ⟨hl, hk⟩ := expect_left h
    have hc' : ¬ Occurs CRLF s'.left := fun o => hc (by rw [hl]; exact occurs_left o)
    rcases hk with ⟨-, h2⟩ | ⟨h1, -, h2⟩ | ⟨h1, -, h2, h5, -, h4⟩
    · obtain ⟨u, hu⟩ := cut_ends h2
      exact absurd ⟨u, s'.left, by rw [hl, hu]⟩ hc
    · cases ps with
      | nil =>
        have : ¬ Occurs PROMPT s.left := by rw [hp.1]; simpa using hp.2.2
        obtain ⟨⟨u, hu⟩, _⟩ := well_prompt h2
        exact absurd ⟨u, s'.left, by rw [hl, hu]⟩ this
      | cons p ps =>
        have k := cut_more (cut_whole (hp.2.1 p (by simp))) (ps.flatten ++ r)
        rw [← List.append_assoc, ← List.flatten_cons, ← hp.1, h2] at k
        simp only [List.nil_append, Option.some.injEq, Prod.mk.injEq] at k
        obtain ⟨rfl, k⟩ := k
        subst h1
        rw [List.map_cons, ih ps r ⟨k, fun q hq => hp.2.1 q (by simp [hq]), hp.2.2⟩ hc']
        rfl
    · cases ps with
      | cons p ps =>
        obtain ⟨⟨u, hu⟩, _⟩ := hp.2.1 p (by simp)
        have e := hp.1
        rw [hl, h5, List.append_nil] at e
        exact absurd ⟨u, ps.flatten ++ r, by rw [e, List.flatten_cons, hu]; simp⟩ h4
      | nil =>
        have e := hp.1
        rw [hl, h5, List.append_nil, List.flatten_nil, List.nil_append] at e
        subst e h1
        rw [List.map_cons, ih [] [] ⟨by rw [h5]; rfl, by simp, (cut_none prompt_nil).1 (by decide)⟩ hc', if_neg h2]
        rfl

/-- **C118** (the part that holds): if the lines of the file end with carriage return and line feed, and the socket takes each
line as a whole, the client is told every line.  Missing: files like the one recorded (false, C118_false); prompts. -/
theorem C118_served_partial (h : Handlers σ) (hq : ∀ name, Quiet h name) (order : Phase → List Text) (ho : ValidOrder order)
    (m : Monster) (hm : Reachable order m) (s : Sess σ) (fuel : Nat) (hs : Ready s fuel) (ls : List Text)
    (hc : ∀ l ∈ ls, ¬ Occurs CRLF l) (hpl : Plain (asLines ls)) (hp : ¬ Occurs PROMPT (asLines ls)) (takes : List Nat)
    (ht : Whole takes (ls.map (· ++ CRLF))) (packets : List Text) (hk : packets.flatten = serve takes (ls.map (· ++ CRLF)))
    (rounds : List (Round σ)) (hr : Reading true packets rounds) :
    (listen h order fuel rounds m s).ended = true ∧
    (listen h order fuel rounds m s).calls = wantedAll h order s.subs m ls ++ goodbyes h s.subs := by
  have e : packets.flatten = asLines ls := by
    rw [hk, C85_served_partial _ _ ht, asLines, List.flatMap_def]
  have e' : streamText packets = asLines ls := by
    rw [stream_plain (by rw [e]; exact hpl), e]
  have := C117_closed_partial h hq order ho m hm s fuel hs packets (by rw [e']; exact hp) rounds hr
  rw [e'] at this
  have k := lines_written ls [] hc
  rw [List.append_nil] at k
  rw [linesOf, k] at this
  simpa [crlfLines] using this

/-- Of a text without carriage returns the client makes one message, or as many as there are prompts and one more; how many
lines there are and what the packets are does not matter. -/
theorem C118_joined (packets : List Text) (hc : ¬ Occurs CRLF (streamText packets)) (parts : List Text) (rest : Text)
    (hp : PartsOf (streamText packets) parts rest) (rs : List Recv) (h : Receives true (.new packets) rs) :
    rs.map Message.of = (parts ++ if rest = [] then [] else [rest]).map .text ++ [.ended] :=
  joined h parts rest hp hc

/-- What stands in the file up to the prompt and behind it. -/
def recordedParts : Text × Text := ((cutAfter PROMPT recorded.flatten).getD ([], []))

/-- **C118** is false of the recorded session that the test of `session.py` uses: its lines end with line feeds only.  Whatever
the packets, a client is told of two messages, and both are taken for greetings before the login; of the 24 lines that are something else none
is told, though the file has them (last part: how they are to be told).  The test looks for such a greeting only, and
passes. -/
theorem C118_false (h : Handlers σ) (hq : ∀ name, Quiet h name) (order : Phase → List Text) (ho : ValidOrder order)
    (s : Sess σ) (fuel : Nat) (hs : Ready s fuel) (takes : List Nat) (ht : Whole takes recorded) (packets : List Text)
    (hk : packets.flatten = serve takes recorded) (rounds : List (Round σ)) (hr : Reading true packets rounds) :
    (listen h order fuel rounds .new s).calls = wanted h t!"FIBS_PreLogin" (.text recordedParts.1) s.subs ++
      wanted h t!"FIBS_PreLogin" (.text recordedParts.2) s.subs ++ goodbyes h s.subs ∧
    recordedParts.1 ++ recordedParts.2 = recorded.flatten ∧
    wantedAll h Check.asWritten s.subs .new (Check.fibsSession.map Prod.fst) = told h s.subs Check.fibsSession := by
  have e : packets.flatten = recorded.flatten := by rw [hk, C85_served_partial _ _ ht]
  have hpl : Plain recorded.flatten := by decide +kernel
  have e' : streamText packets = recorded.flatten := by rw [stream_plain (by rw [e]; exact hpl), e]
  have hcut : cutAfter PROMPT recorded.flatten = some recordedParts := by decide +kernel
  have hne : recordedParts.2 ≠ [] := by decide +kernel
  have hno : ¬ Occurs PROMPT recordedParts.2 := (cut_none prompt_nil).1 (by decide +kernel)
  have c1 : (Monster.new.makeCookie Check.asWritten recordedParts.1).1 = .ok t!"FIBS_PreLogin" := by decide +kernel
  have c2 : (Monster.new.makeCookie Check.asWritten recordedParts.2).1 = .ok t!"FIBS_PreLogin" := by decide +kernel
  have hcr : ¬ Occurs CRLF recorded.flatten := (cut_none crlf_nil).1 (by decide +kernel)
  generalize recordedParts = parts at hcut hne hno c1 c2 ⊢
  generalize recorded.flatten = whole at e' hcut hcr ⊢
  obtain ⟨p1, p2⟩ := parts
  dsimp only at hcut hne hno c1 c2 ⊢
  have hsum : whole = p1 ++ p2 := cut_eq hcut
  refine ⟨?_, hsum.symm, ?_⟩
  · have k := C118_joined packets (by rw [e']; exact hcr) [p1] p2
      ⟨by rw [e', hsum]; simp, by
        intro p hp
        rw [List.mem_singleton] at hp
        subst hp
        exact well_prompt (b := p2) hcut, hno⟩ _ hr.1
    rw [if_neg hne] at k
    have g := listen_closed h hq order ho fuel rounds ([p1] ++ [p2]) .new s hr.2 (reading_eof hr) k .new hs
    rw [g.2]
    congr 1
    have pre : ∀ t, (Monster.new.makeCookie Check.asWritten t).1 = .ok t!"FIBS_PreLogin" → ∀ m, Reachable order m → m.phase = .login →
        (m.makeCookie order t).1 = .ok t!"FIBS_PreLogin" ∧ (m.makeCookie order t).2.phase = .login := by
      intro t ht m hm hp
      have a : (m.makeCookie order t).1 = .ok t!"FIBS_PreLogin" := by
        rw [C30_login order Check.asWritten ho (fun _ => .refl _) m .new hm .new hp rfl, ht]
      refine ⟨a, ?_⟩
      have := C30_phase order ho m hm t _ a
      rw [hp] at this
      exact this
    obtain ⟨a1, a2⟩ := pre p1 c1 .new .new rfl
    obtain ⟨b1, -⟩ := pre p2 c2 _ (.step _ p1 .new) a2
    rw [List.cons_append, List.nil_append, wantedAll_step _ _ _ _ _ _ _ a1, wantedAll_step _ _ _ _ _ _ _ b1]
    simp [wantedAll]
  · have key : ∀ (ls : List (Text × Text)) (m : Monster), Check.answers Check.asWritten m (ls.map Prod.fst) = ls.map (.ok ·.2) →
        wantedAll h Check.asWritten s.subs m (ls.map Prod.fst) = told h s.subs ls := by
      intro ls
      induction ls with
      | nil => intro m _; rfl
      | cons x ls ih =>
        intro m e
        rw [List.map_cons, Check.answers, List.map_cons, List.cons.injEq] at e
        rw [List.map_cons, wantedAll_step _ _ _ _ _ _ _ e.1, ih _ e.2]
        simp [told]
    exact key _ _ Check.fibs_test

/-! ### Instances -/

/-- C118_served_partial has instances. -/
example : (∀ l ∈ [t!"3", t!"hello", t!"4"], ¬ Occurs CRLF l) ∧ Plain (asLines [t!"3", t!"hello", t!"4"]) ∧
    ¬ Occurs PROMPT (asLines [t!"3", t!"hello", t!"4"]) ∧ Whole [3, 7] ([t!"3", t!"hello", t!"4"].map (· ++ CRLF)) ∧
    wantedAll listeners Check.asWritten [1, 5, 0] .new [t!"3"] =
      [(1, t!"CLIP_MOTD_BEGIN", .text t!"3"), (0, t!"CLIP_MOTD_BEGIN", .text t!"3")] := by
  refine ⟨?_, by decide, (cut_none prompt_nil).1 (by decide +kernel), by unfold Whole; decide, by decide +kernel⟩
  have : ∀ l ∈ [t!"3", t!"hello", t!"4"], cutAfter CRLF l = none := by decide +kernel
  exact fun l hl => (cut_none crlf_nil).1 (this l hl)

/-- C118_joined has instances: with a prompt, and without. -/
example : PartsOf t!"a\nlogin: \nb\n" [t!"a\nlogin: "] t!"\nb\n" ∧ PartsOf t!"3\n4\n" [] t!"3\n4\n" :=
  ⟨⟨rfl, by
    intro p hp
    rw [List.mem_singleton] at hp
    subst hp
    exact well_prompt (b := []) (t := t!"a\nlogin: ") (by decide), (cut_none prompt_nil).1 (by decide)⟩,
   ⟨rfl, by simp, (cut_none prompt_nil).1 (by decide)⟩⟩

/-- C118_false has instances, and there are handlers for what is not told. -/
example : Whole [] recorded ∧ (told listeners [0] Check.fibsSession).length = 45 ∧
    (Check.fibsSession.filter fun x => x.2 ≠ t!"FIBS_PreLogin").length = 24 ∧ recorded.length = 46 :=
  ⟨by simp [Whole], by decide +kernel, by decide +kernel, by decide +kernel⟩

end Bglib
