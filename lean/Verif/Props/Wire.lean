import Verif.Lemmas.Wire
/-
C113: commands of Telnet among what is read, and what is sent.
-/
namespace Bglib
open Spec Telnet

/-- **C113**: the text that is read is what the other side says by RFC 854: its characters, without the commands, options
and parameters between them, wherever the packets end. -/
theorem C113_commands (ms : List Sent) (h : ∀ m ∈ ms, m.Ok) (chunks : List Text) (hc : chunks.flatten = ms.flatMap Sent.wire) :
    streamText chunks = ms.flatMap Sent.text := by
  unfold streamText
  rw [hc, run_sents ms h]

/-- **C113**: the lines a client sends are the lines the other side reads by RFC 854, exactly if none has the end of a line
in it.  (NUL and XON are nothing to a reader.) -/
theorem C113_sent (ls : List Text) (h : ∀ l ∈ ls, ∀ c ∈ l, c ≠ octet 0 ∧ c ≠ octet 17) :
    ∃ ms : List Sent, (∀ m ∈ ms, m.Ok) ∧ ms.flatMap Sent.wire = ls.flatMap sendLine ∧
      ((crlfLines (ms.flatMap Sent.text) = (ls, [])) ↔ ∀ l ∈ ls, ¬ Occurs CRLF l) := by
  refine ⟨(ls.flatMap (· ++ CRLF)).map sentChar, ?_, ?_, ?_⟩
  · intro m hm
    obtain ⟨c, hc, rfl⟩ := List.mem_map.1 hm
    obtain ⟨l, hl, hc⟩ := List.mem_flatMap.1 hc
    rcases List.mem_append.1 hc with hc | hc
    · exact sentChar_ok c (h l hl c hc).1 (h l hl c hc).2
    · have : ∀ c ∈ CRLF, c ≠ octet 0 ∧ c ≠ octet 17 := by decide
      exact sentChar_ok c (this c hc).1 (this c hc).2
  · rw [← write_wire]
    clear h
    induction ls with
    | nil => rfl
    | cons l ls ih => rw [List.flatMap_cons, List.flatMap_cons, write_append, ih]; rfl
  · rw [text_wire]
    refine ⟨fun e l hl => ?_, lines_of ls⟩
    refine lines_clean (ls.flatMap (· ++ CRLF)) l ?_
    rw [e]
    exact hl

/-- C113_commands has instances: an option, a command, parameters and the character 255. -/
example : (∀ m ∈ [Sent.option (octet 251) (octet 1), .char 'a', .parameters [some 'x', none, some (octet 0)], .command (octet 241),
      .idle (octet 0), .doubled], m.Ok) ∧
    [Sent.option (octet 251) (octet 1), .char 'a', .parameters [some 'x', none, some (octet 0)], .command (octet 241),
      .idle (octet 0), .doubled].flatMap Sent.text = ['a', octet 255] := by
  exact ⟨by decide, by decide⟩

/-- C113_sent has instances, both ways. -/
example : (∀ c ∈ t!"move 8-5 6-5", c ≠ octet 0 ∧ c ≠ octet 17) ∧ ¬ Occurs CRLF t!"move 8-5 6-5" ∧ Occurs CRLF t!"say hi\r\nresign b" :=
  ⟨by decide, (cut_none crlf_nil).1 (by decide +kernel), ⟨t!"say hi", t!"resign b", by decide⟩⟩

end Bglib
