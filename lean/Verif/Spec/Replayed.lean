import Verif.Spec.EndToEnd
import Verif.Model.Replay
import Verif.Check.Fibs
/-
A recorded session played to a client (C118).
-/
namespace Bglib.Spec
open Bglib

variable {σ : Type}

/-- The lines of `protocol/fibs_test.in` as they are in the file, which has no carriage returns; the last line is empty. -/
def recorded : List Text := (Check.fibsSession.map Prod.fst ++ [[]]).map (· ++ ['\n'])

/-- Each line is taken as a whole by the socket. -/
def Whole (takes : List Nat) (lines : List Text) : Prop := ∀ p ∈ takes.zip lines, p.2.length ≤ p.1

/-- The text falls into parts that end with the prompt, and a rest. -/
def PartsOf (t : Text) (parts : List Text) (rest : Text) : Prop :=
  t = parts.flatten ++ rest ∧ (∀ p ∈ parts, EndsInPrompt p) ∧ ¬ Occurs Telnet.PROMPT rest

end Bglib.Spec
