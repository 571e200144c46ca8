import Verif.Model.Telnet
/-
What a client should get from the network (C113): the lines the server wrote, however they were cut into
packets.
-/
namespace Bglib.Spec
open Bglib Bglib.Telnet

/-- The text behind the chunks: without the commands of Telnet. -/
def streamText (chunks : List Text) : Text := (Cook.new.run chunks.flatten).2

/-- The lines of a text, without their ends, and what stands behind the last of them. -/
def crlfLines : Text → List Text × Text
  | [] => ([], [])
  | '\r' :: '\n' :: t => ([] :: (crlfLines t).1, (crlfLines t).2)
  | c :: t =>
    match crlfLines t with
    | ([], r) => ([], c :: r)
    | (l :: ls, r) => ((c :: l) :: ls, r)

/-- The text occurs in the other one. -/
def Occurs (p t : Text) : Prop := ∃ u v, t = u ++ p ++ v

/-- No characters that `telnetlib` treats apart. -/
def Plain (t : Text) : Prop := ∀ c ∈ t, c ≠ NUL ∧ c ≠ XON ∧ c ≠ IAC

instance (t : Text) : Decidable (Plain t) := inferInstanceAs (Decidable (∀ c ∈ t, _))

/-- The text ends with the prompt, which stands nowhere before. -/
def EndsInPrompt (t : Text) : Prop :=
  (∃ u, t = u ++ PROMPT) ∧ ∀ u v, t = u ++ PROMPT ++ v → v = []

/-- What the listener hands on, session.py:101-103: texts, and at the end of the connection an exception. -/
inductive Message where
  | text (t : Text)
  | ended
  deriving DecidableEq, Repr

def Message.of : Recv → Message
  | .got n a => .text (Bglib.received n a)
  | .raised _ => .ended

/-- The text that `expect` gave. -/
def given : Recv → Text
  | .got _ a => a
  | .raised _ => []

/-- How `expect` may cut: behind the end of a line, behind a prompt, and at the end of the connection. -/
def CutWell : Recv → Prop
  | .got n a =>
    (n = 0 ∧ ∃ l, a = l ++ CRLF ∧ ¬ Occurs CRLF l) ∨
    (n = 1 ∧ EndsInPrompt a ∧ ¬ Occurs CRLF a) ∨
    (n = -1 ∧ a ≠ [] ∧ ¬ Occurs CRLF a ∧ ¬ Occurs PROMPT a)
  | .raised e => e = .eofError

/-- The messages of a text that is complete: its lines, what stands behind them, the end. -/
def wholeMessages (t : Text) : List Message :=
  (crlfLines t).1.map .text ++ (if (crlfLines t).2 = [] then [] else [.text (crlfLines t).2]) ++ [.ended]

/-- The chunks of a text that arrives all at once: `recv(50)`. -/
def atOnce (t : Text) : List Text :=
  if t.length ≤ 50 then (if t = [] then [] else [t]) else t.take 50 :: atOnce (t.drop 50)
termination_by t.length
decreasing_by simp; omega

end Bglib.Spec
