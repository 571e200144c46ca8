import Verif.Lemmas.Telnet
import Verif.Spec.Wire
/-
Lemmas for C113: commands of Telnet.
-/
namespace Bglib.Telnet
open Bglib Spec

theorem run_parameters (ps : List (Option Char)) (h : some (octet 255) ∉ ps) :
    (⟨.none, true⟩ : Cook).run (ps.flatMap Sent.parameter) =
      (⟨.none, true⟩, []) := by
  induction ps with
  | nil => rfl
  | cons p ps ih =>
    have ih := ih fun m => h (List.mem_cons_of_mem _ m)
    rw [List.flatMap_cons, run_append]
    have e : (⟨.none, true⟩ : Cook).run (Sent.parameter p) =
        (⟨.none, true⟩, []) := by
      cases p with
      | none => decide
      | some c =>
        have hc : c ≠ IAC := by
          rintro rfl
          exact h List.mem_cons_self
        simp only [Sent.parameter, Cook.run, Cook.next]
        by_cases z : c = NUL ∨ c = XON
        · rw [if_pos z]; rfl
        · rw [if_neg z, if_pos hc]; rfl
    rw [e, ih]
    rfl

theorem run_sent (m : Sent) (h : m.Ok) : Cook.new.run m.wire = (.new, m.text) := by
  cases m with
  | char c =>
    obtain ⟨h1, h2, h3⟩ := h
    have h1 : c ≠ NUL := h1
    have h2 : c ≠ XON := h2
    have h3 : c ≠ IAC := h3
    simp only [Sent.wire, Sent.text, Cook.run, Cook.next, Cook.new, h1, h2, h3, or_self, if_false, ne_eq, not_false_eq_true,
      if_true, Bool.false_eq_true, List.append_nil]
  | doubled => decide
  | idle c => rcases h with rfl | rfl <;> decide
  | option v o =>
    rcases h with rfl | rfl | rfl | rfl <;> rfl
  | command c =>
    obtain ⟨h0, h1, h2, h3, h4, h5, h6⟩ := h
    have h0 : c ≠ SE := h0
    have h1 : c ≠ SB := h1
    have h2 : c ≠ WILL := h2
    have h3 : c ≠ WONT := h3
    have h4 : c ≠ DO := h4
    have h5 : c ≠ DONT := h5
    have h6 : c ≠ IAC := h6
    have e : Cook.new.next (octet 255) = (⟨.begun, false⟩, []) := by decide
    simp only [Sent.wire, Sent.text, Cook.run, e]
    simp only [Cook.next, h0, h1, h2, h3, h4, h5, h6, or_self, if_false]
    rfl
  | parameters ps =>
    simp only [Sent.wire, Sent.text]
    rw [run_append, run_append]
    have e : Cook.new.run [octet 255, octet 250] = (⟨.none, true⟩, []) := by decide
    simp only [e, run_parameters ps h]
    decide

theorem run_sents (ms : List Sent) (h : ∀ m ∈ ms, m.Ok) :
    Cook.new.run (ms.flatMap Sent.wire) = (.new, ms.flatMap Sent.text) := by
  induction ms with
  | nil => rfl
  | cons m ms ih =>
    rw [List.flatMap_cons, run_append, run_sent m (h m List.mem_cons_self),
      ih fun x hx => h x (List.mem_cons_of_mem _ hx)]
    rfl

/-- A character of a line that is sent. -/
def sentChar (c : Char) : Sent := if c = octet 255 then .doubled else .char c

theorem sentChar_wire (c : Char) : (sentChar c).wire = if c = IAC then [IAC, IAC] else [c] := by
  unfold sentChar
  by_cases h : c = octet 255
  · rw [if_pos h, if_pos (show c = IAC from h)]; rfl
  · rw [if_neg h, if_neg (show c ≠ IAC from h)]; rfl

theorem sentChar_text (c : Char) : (sentChar c).text = [c] := by
  unfold sentChar
  by_cases h : c = octet 255
  · rw [if_pos h, h]; rfl
  · rw [if_neg h]; rfl

theorem sentChar_ok (c : Char) (h0 : c ≠ octet 0) (h1 : c ≠ octet 17) : (sentChar c).Ok := by
  unfold sentChar
  by_cases h : c = octet 255
  · rw [if_pos h]; trivial
  · rw [if_neg h]; exact ⟨h0, h1, h⟩

theorem write_wire (t : Text) : write t = (t.map sentChar).flatMap Sent.wire := by
  unfold write
  induction t with
  | nil => rfl
  | cons c t ih => rw [List.flatMap_cons, ih, List.map_cons, List.flatMap_cons, sentChar_wire]

theorem text_wire (t : Text) : (t.map sentChar).flatMap Sent.text = t := by
  induction t with
  | nil => rfl
  | cons c t ih => rw [List.map_cons, List.flatMap_cons, ih, sentChar_text]; rfl

theorem write_append (a b : Text) : write (a ++ b) = write a ++ write b := by
  unfold write
  rw [List.flatMap_append]

theorem lines_of (ls : List Text) (h : ∀ l ∈ ls, ¬ Occurs CRLF l) : crlfLines (ls.flatMap (· ++ CRLF)) = (ls, []) := by
  induction ls with
  | nil => rfl
  | cons l ls ih =>
    rw [List.flatMap_cons, lines_cut, cut_line (h l List.mem_cons_self)]
    simp only [ih fun x hx => h x (List.mem_cons_of_mem _ hx)]
    rw [List.length_append, show CRLF.length = 2 from rfl, Nat.add_sub_cancel, List.take_left]

theorem lines_clean (t : Text) : ∀ l ∈ (crlfLines t).1, ¬ Occurs CRLF l := by
  intro l
  generalize hn : t.length = n
  induction n using Nat.strongRecOn generalizing t with
  | ind n ih =>
    rw [lines_cut]
    cases hc : cutAfter CRLF t with
    | none => intro h; exact absurd h (by simp)
    | some p =>
      obtain ⟨a, b⟩ := p
      intro h
      simp only [List.mem_cons] at h
      rcases h with rfl | h
      · obtain ⟨u, rfl⟩ := cut_ends hc
        rw [List.length_append, show CRLF.length = 2 from rfl, Nat.add_sub_cancel, List.take_left]
        rintro ⟨x, y, rfl⟩
        have := cut_first hc x (y ++ CRLF) (by simp)
        simp [CRLF] at this
      · refine ih b.length ?_ b rfl h
        obtain ⟨u, rfl⟩ := cut_ends hc
        rw [← hn, cut_eq hc]
        simp [CRLF]
        omega

end Bglib.Telnet
