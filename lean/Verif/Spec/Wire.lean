import Verif.Spec.Telnet
/-
What goes over a connection of Telnet, by RFC 854 (C113): characters, and commands, which begin with the
character 255.  Numbers are those of the RFC.
-/
namespace Bglib.Spec
open Bglib

/-- A character by its number. -/
abbrev octet (n : Nat) : Char := Char.ofNat n

/-- A part of what the other side sends. -/
inductive Sent where
  /-- a character that stands for itself -/
  | char (c : Char)
  /-- the character 255 as text -/
  | doubled
  /-- NUL and XON, which mean nothing -/
  | idle (c : Char)
  /-- WILL, WONT, DO or DONT, and the option -/
  | option (verb : Char) (opt : Char)
  /-- a command without anything behind it -/
  | command (c : Char)
  /-- SB, parameters of an option, SE; `none` is the character 255 among the parameters -/
  | parameters (ps : List (Option Char))

/-- Which characters may stand where. -/
def Sent.Ok : Sent → Prop
  | .char c => c ≠ octet 0 ∧ c ≠ octet 17 ∧ c ≠ octet 255
  | .doubled => True
  | .idle c => c = octet 0 ∨ c = octet 17
  | .option v _ => v = octet 251 ∨ v = octet 252 ∨ v = octet 253 ∨ v = octet 254
  | .command c => c ≠ octet 240 ∧ c ≠ octet 250 ∧ c ≠ octet 251 ∧ c ≠ octet 252 ∧ c ≠ octet 253 ∧ c ≠ octet 254 ∧
      c ≠ octet 255
  | .parameters ps => some (octet 255) ∉ ps

instance (m : Sent) : Decidable m.Ok := by cases m <;> unfold Sent.Ok <;> infer_instance

/-- How a parameter is sent. -/
def Sent.parameter : Option Char → Text
  | some c => [c]
  | none => [octet 255, octet 255]

/-- How it is sent. -/
def Sent.wire : Sent → Text
  | .char c => [c]
  | .doubled => [octet 255, octet 255]
  | .idle c => [c]
  | .option v o => [octet 255, v, o]
  | .command c => [octet 255, c]
  | .parameters ps => [octet 255, octet 250] ++ ps.flatMap Sent.parameter ++ [octet 255, octet 240]

/-- What it says to whoever reads. -/
def Sent.text : Sent → Text
  | .char c => [c]
  | .doubled => [octet 255]
  | _ => []

end Bglib.Spec
