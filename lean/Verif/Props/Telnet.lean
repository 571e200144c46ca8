import Verif.Lemmas.Telnet
import Verif.Props.Message
/-
C113: the messages of a session are the lines the server sends, however the network cuts them.
-/
namespace Bglib
open Spec Telnet

/-- The listener gets something definite from every connection, and its loop ends or waits. -/
theorem C113_total (closed : Bool) (chunks : List Text) :
    ∃ rs, Receives closed (.new chunks) rs ∧ ∀ rs', Receives closed (.new chunks) rs' → rs' = rs := by
  obtain ⟨rs, h⟩ := receives_exists closed _ (.new chunks) (Nat.lt_succ_self _)
  exact ⟨rs, h, fun rs' h' => receives_unique h' h⟩

/-- Nothing is lost, doubled or put out of order, and the text is cut only behind the end of a line, behind "login: " and at the end of
the connection. -/
theorem C113_lossless (chunks : List Text) (rs : List Recv) (h : Receives true (.new chunks) rs) :
    (rs.map given).flatten = streamText chunks ∧ ∀ r ∈ rs, CutWell r :=
  ⟨lossless h, well true h⟩

/-- While the connection is open, what was not given out yet has neither the end of a line nor "login: " in it. -/
theorem C113_waiting (chunks : List Text) (rs : List Recv) (h : Receives false (.new chunks) rs) :
    (∃ r, streamText chunks = (rs.map given).flatten ++ r ∧ ¬ Occurs CRLF r ∧ ¬ Occurs PROMPT r) ∧ ∀ r ∈ rs, CutWell r :=
  ⟨lossless_waiting h, well false h⟩

/-- **C113** (the part that holds): if "login: " does not occur in what the server sends, the messages are its lines, whatever the
packets are.  Missing: texts with "login: " in them (false, C113_false). -/
theorem C113_lines_partial (chunks : List Text) (hp : ¬ Occurs PROMPT (streamText chunks)) :
    (∀ rs, Receives true (.new chunks) rs → rs.map Message.of = wholeMessages (streamText chunks)) ∧
    (∀ rs, Receives false (.new chunks) rs → rs.map Message.of = (crlfLines (streamText chunks)).1.map .text) :=
  ⟨fun _ h => messages_lines h hp, fun _ h => waiting_lines h hp⟩

/-- The prompt for the login is a message of its own if the server waits there, and the lines before it and after it are messages. -/
theorem C113_prompt_partial (cs1 cs2 : List Text) (t1 t2 : Text) (h1 : streamText cs1 = t1) (h2 : streamText (cs1 ++ cs2) = t1 ++ t2)
    (hp : EndsInPrompt t1) (hn : ¬ Occurs PROMPT t2) (rs : List Recv) (h : Receives true (.new (cs1 ++ cs2)) rs) :
    rs.map Message.of = (crlfLines t1).1.map .text ++ [.text (crlfLines t1).2] ++ wholeMessages t2 := by
  obtain ⟨s', rs', h3, h4, h5⟩ := messages_prompt cs2 (Cook.new.run cs1.flatten).1 _ t1 (.new (cs1 ++ cs2)) (Nat.lt_succ_self _)
    ⟨cs1, rfl, h1, rfl⟩ hp h
  have e : s'.left = t2 := by
    rw [h4]
    unfold streamText at h1 h2
    rw [List.flatten_append, run_append, h1] at h2
    exact List.append_cancel_left h2
  rw [h5, messages_lines h3 (by rw [e]; exact hn), e]

/-- When a line is given out as a whole: exactly if, whenever "login: " was read, the line was read to its end. -/
theorem C113_exact (closed : Bool) (chunks : List Text) (l r : Text) (hl : ¬ Occurs CRLF l) (h : streamText chunks = l ++ CRLF ++ r)
    (rs : List Recv) (hr : Receives closed (.new chunks) rs) :
    rs.head? = some (.got 0 (l ++ CRLF)) ↔
      ∀ i, Occurs PROMPT (streamText (chunks.take i)) → (l ++ CRLF) <+: streamText (chunks.take i) := by
  have key := go_whole closed hl chunks [] .new h
  refine Iff.trans ?_ key
  cases hr with
  | waits e =>
    refine iff_of_false (by simp) ?_
    rintro ⟨s', k⟩
    rw [expect, show (Conn.new chunks).chunks = chunks from rfl] at e
    rw [show (Conn.new chunks).cooked = [] from rfl, show (Conn.new chunks).cook = .new from rfl, k] at e
    cases e
  | raised e =>
    refine iff_of_false (by simp) ?_
    rintro ⟨s', k⟩
    rw [expect, show (Conn.new chunks).chunks = chunks from rfl] at e
    rw [show (Conn.new chunks).cooked = [] from rfl, show (Conn.new chunks).cook = .new from rfl, k] at e
    cases e
  | got e hr =>
    rw [expect, show (Conn.new chunks).chunks = chunks from rfl] at e
    rw [show (Conn.new chunks).cooked = [] from rfl, show (Conn.new chunks).cook = .new from rfl] at e
    rw [e]
    simp

/-- So a line with "login: " and 48 characters or more behind it is never given out as a whole: `telnetlib` reads 50 at a time. -/
theorem C113_long (closed : Bool) (chunks : List Text) (u v r : Text) (hl : ¬ Occurs CRLF (u ++ PROMPT ++ v)) (hv : 48 ≤ v.length)
    (h : streamText chunks = u ++ PROMPT ++ v ++ CRLF ++ r) (hc : ∀ c ∈ chunks, c.length ≤ 50) (rs : List Recv)
    (hr : Receives closed (.new chunks) rs) : rs.head? ≠ some (.got 0 (u ++ PROMPT ++ v ++ CRLF)) := by
  rw [Ne, C113_exact closed chunks _ r hl h rs hr]
  intro g
  obtain ⟨i, h1, h2⟩ := boundary chunks (u ++ PROMPT).length hc (by simp [PROMPT]) (by rw [h]; simp)
  have o : Occurs PROMPT (streamText (chunks.take i)) := by
    have k := List.prefix_of_prefix_length_le (l₁ := u ++ PROMPT) ⟨v ++ CRLF ++ r, by rw [h]; simp⟩ (stream_prefix chunks i) h1
    obtain ⟨w, hw⟩ := k
    exact ⟨u, w, hw.symm⟩
  have := (g i o).length_le
  simp only [List.length_append] at this h2
  have e : CRLF.length = 2 := rfl
  omega

/-- **C113** is false: what stands behind "login: " in a line can become a message of its own.  This is so for every line that arrives
all at once and has "login: " where the first 50 characters end. -/
theorem C113_false (v s : Text) (hv : v.length = 43) (hs : s.length ≤ 48) (hpl : Plain (v ++ s)) (h1 : EndsInPrompt (v ++ PROMPT))
    (h2 : ¬ Occurs CRLF (v ++ PROMPT)) (h3 : ¬ Occurs PROMPT (s ++ CRLF)) (h4 : ¬ Occurs CRLF s) (rs : List Recv)
    (h : Receives true (.new (atOnce (v ++ PROMPT ++ s ++ CRLF))) rs) :
    rs.map Message.of = [.text (v ++ PROMPT), .text s, .ended] := by
  have e : atOnce (v ++ PROMPT ++ s ++ CRLF) = [v ++ PROMPT, s ++ CRLF] := by
    have hl : (v ++ PROMPT).length = 50 := by simp [hv, PROMPT]
    have hc : CRLF.length = 2 := rfl
    rw [List.append_assoc, atOnce, if_neg (by simp only [List.length_append] at hl ⊢; omega), ← hl, List.take_left, List.drop_left, atOnce,
      if_pos (by simp only [List.length_append]; omega), if_neg (by simp [CRLF])]
  rw [e] at h
  have p1 : Plain (v ++ PROMPT) := by
    intro c hc
    rcases List.mem_append.1 hc with hc | hc
    · exact hpl c (List.mem_append_left _ hc)
    · exact (by decide : Plain PROMPT) c hc
  have p2 : Plain (v ++ PROMPT ++ (s ++ CRLF)) := by
    intro c hc
    rcases List.mem_append.1 hc with hc | hc
    · exact p1 c hc
    · rcases List.mem_append.1 hc with hc | hc
      · exact hpl c (List.mem_append_right _ hc)
      · exact (by decide : Plain CRLF) c hc
  have := C113_prompt_partial [v ++ PROMPT] [s ++ CRLF] (v ++ PROMPT) (s ++ CRLF)
    (by rw [stream_plain (by simpa using p1)]; simp) (by rw [stream_plain (by simpa using p2)]; simp) h1 h3 rs h
  rw [this, lines_cut, (cut_none crlf_nil).2 h2]
  have k := cut_line h4 []
  rw [List.append_nil] at k
  unfold wholeMessages
  rw [lines_cut (s ++ CRLF), k]
  simp [crlfLines, CRLF]

/-- So what one user shouts makes the client of another believe that it rolled a double six, whatever came before. -/
theorem C113_false_forged (order : Phase → List Text) (ho : ValidOrder order) (m : Monster) (hr : Reachable order m) (hp : m.phase = .run)
    (rs : List Recv)
    (h : Receives true (.new (atOnce (t!"13 mallory if it does not work, just try a login: You roll 6 and 6." ++ CRLF))) rs) :
    FilledIn [.words t!"13 ", .user, .words t!" ", .rest] t!"13 mallory if it does not work, just try a login: You roll 6 and 6." ∧
    rs.map Message.of = [.text t!"13 mallory if it does not work, just try a login: ", .text t!"You roll 6 and 6.", .ended] ∧
    (m.makeCookie order t!"You roll 6 and 6.").1 = .ok t!"FIBS_YouRoll" := by
  refine ⟨.cons _ _ t!"13 " t!"mallory if it does not work, just try a login: You roll 6 and 6." rfl
    (.cons _ _ t!"mallory" t!" if it does not work, just try a login: You roll 6 and 6." ⟨by decide, by decide⟩
    (.cons _ _ t!" " t!"if it does not work, just try a login: You roll 6 and 6." rfl
    (.cons _ _ t!"if it does not work, just try a login: You roll 6 and 6." [] ?_ .nil))), ?_, ?_⟩
  · intro c hc
    revert c
    decide +kernel
  · have k := C113_false t!"13 mallory if it does not work, just try a " t!"You roll 6 and 6." (by decide) (by decide) (by decide +kernel)
      (well_prompt (b := []) (t := t!"13 mallory if it does not work, just try a login: ") (by decide +kernel))
      ((cut_none crlf_nil).1 (by decide +kernel)) ((cut_none prompt_nil).1 (by decide +kernel)) ((cut_none crlf_nil).1 (by decide +kernel)) rs h
    exact k
  · refine C110_games ([.words t!"You roll ", .die, .words t!" and ", .die, .words t!"."], t!"FIBS_YouRoll") ?_ order ho m hr hp _ ?_
    · decide +kernel
    · exact .cons _ _ t!"You roll " t!"6 and 6." rfl (.cons _ _ t!"6" t!" and 6." ⟨'6', rfl, by decide⟩ (.cons _ _ t!" and " t!"6." rfl
        (.cons _ _ t!"6" t!"." ⟨'6', rfl, by decide⟩ (.cons _ _ t!"." [] rfl .nil))))

/-- The same line read in one piece is one message: what the client believes depends on the network. -/
theorem C113_false_packets :
    ∃ (line : Text) (a b : List Text), a.flatten = line ∧ b.flatten = line ∧ (∀ c ∈ a ++ b, c.length ≤ 50) ∧
      (∀ rs, Receives true (.new a) rs → rs.map Message.of = [.text t!"13 fred my login: bob", .ended]) ∧
      (∀ rs, Receives true (.new b) rs → rs.map Message.of = [.text t!"13 fred my login: ", .text t!"bob", .ended]) := by
  refine ⟨t!"13 fred my login: bob" ++ CRLF, [t!"13 fred my login: bob" ++ CRLF], [t!"13 fred my login: ", t!"bob" ++ CRLF], by decide, by decide,
    by decide, fun rs h => ?_, fun rs h => ?_⟩
  · rw [receives_unique h (.got (n := 0) (a := t!"13 fred my login: bob" ++ CRLF) (s' := ⟨[], .new, []⟩) (by decide +kernel)
      (.raised (e := .eofError) (s' := ⟨[], .new, []⟩) (by decide +kernel)))]
    decide
  · rw [receives_unique h (.got (n := 1) (a := t!"13 fred my login: ") (s' := ⟨[], .new, [t!"bob" ++ CRLF]⟩) (by decide +kernel)
      (.got (n := 0) (a := t!"bob" ++ CRLF) (s' := ⟨[], .new, []⟩) (by decide +kernel)
        (.raised (e := .eofError) (s' := ⟨[], .new, []⟩) (by decide +kernel))))]
    decide

/-- A prompt that the next line follows at once is not seen: it becomes the beginning of that line. -/
theorem C113_false_prompt (t : Text) (hc : ¬ Occurs CRLF (PROMPT ++ t)) (hp : Plain t) (rs : List Recv)
    (h : Receives true (.new [PROMPT ++ t ++ CRLF]) rs) : rs.map Message.of = [.text (PROMPT ++ t), .ended] := by
  have p : Plain (PROMPT ++ t ++ CRLF) := by
    intro c hc
    rcases List.mem_append.1 hc with hc | hc
    · rcases List.mem_append.1 hc with hc | hc
      · exact (by decide : Plain PROMPT) c hc
      · exact hp c hc
    · exact (by decide : Plain CRLF) c hc
  have k := cut_line hc []
  rw [List.append_nil] at k
  have e1 : expect true (.new [PROMPT ++ t ++ CRLF]) = (some (.got 0 (PROMPT ++ t ++ CRLF)), ⟨[], .new, []⟩) := by
    unfold expect
    rw [show (Conn.new [PROMPT ++ t ++ CRLF]).chunks = [PROMPT ++ t ++ CRLF] from rfl,
      show (Conn.new [PROMPT ++ t ++ CRLF]).cooked = [] from rfl, show (Conn.new [PROMPT ++ t ++ CRLF]).cook = .new from rfl,
      expectGo, show look [] = none from rfl]
    dsimp only
    rw [run_plain p, expectGo, look, List.nil_append, k]
  have e2 : expect true ⟨[], .new, []⟩ = (some (.raised .eofError), ⟨[], .new, []⟩) := by decide
  rw [receives_unique h (.got e1 (.raised e2))]
  have e : (PROMPT ++ t ++ CRLF).take ((PROMPT ++ t ++ CRLF).length - 2) = PROMPT ++ t := by
    rw [List.length_append, show CRLF.length = 2 from rfl, Nat.add_sub_cancel, List.take_left]
  simp only [List.map_cons, List.map_nil, Message.of, received, if_pos, e]

/-! ### Instances -/

/-- C113_lines_partial has instances, with packets that end anywhere. -/
example : ¬ Occurs PROMPT (streamText [t!"12 fred hel", t!"lo\r", t!"\n6\r\n"]) ∧
    crlfLines (streamText [t!"12 fred hel", t!"lo\r", t!"\n6\r\n"]) = ([t!"12 fred hello", t!"6"], []) :=
  ⟨(cut_none prompt_nil).1 (by decide +kernel), by decide +kernel⟩

/-- C113_prompt_partial has instances, with commands of Telnet. -/
example : streamText [[IAC, WILL], ['\x01'] ++ t!"welcome\r\nlog", t!"in: "] = t!"welcome\r\nlogin: " ∧ EndsInPrompt t!"welcome\r\nlogin: " ∧
    crlfLines t!"welcome\r\nlogin: " = ([t!"welcome"], t!"login: ") :=
  ⟨by decide +kernel, well_prompt (b := []) (t := t!"welcome\r\nlogin: ") (by decide +kernel), by decide +kernel⟩

/-- C113_exact and C113_long have instances. -/
example : ¬ Occurs CRLF t!"13 fred my login: bob" ∧
    streamText [t!"13 fred my login: ", t!"bob\r\n6"] = t!"13 fred my login: bob" ++ CRLF ++ t!"6" ∧
    48 ≤ (List.replicate 48 'x').length ∧ ¬ Occurs CRLF (t!"13 fred my " ++ PROMPT ++ List.replicate 48 'x') :=
  ⟨(cut_none crlf_nil).1 (by decide +kernel), by decide +kernel, by decide, (cut_none crlf_nil).1 (by decide +kernel)⟩

/-- C113_false_prompt has instances. -/
example : ¬ Occurs CRLF (PROMPT ++ t!"3") ∧ Plain t!"3" := ⟨(cut_none crlf_nil).1 (by decide), by decide⟩

end Bglib
