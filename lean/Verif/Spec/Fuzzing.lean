import Verif.Model.Fuzzing
import Verif.Spec.Wiki
/-
What tests by chance should do.
-/
namespace Bglib.Spec
open Doc

/-- A text of `n` letters. -/
inductive Spelled (letters : List Text) : Nat → Text → Prop where
  | nil : Spelled letters 0 []
  | cons {n : Nat} {a t : Text} : a ∈ letters → Spelled letters n t → Spelled letters (n + 1) (a ++ t)

/-- The text is formatted to valid HTML. -/
def FormatsWell (validate : Text → Bool) (r : Run) : Prop := ∃ t, r = .html (some t) ∧ t ≠ [] ∧ validate t = true

/-- Formatting a wiki text, fuzzing.py:56-66; the child starts with a formatter not used before.  The HTML is taken
without attributes. -/
def wikiRun (env : Env) (text : Text) : Run :=
  match format env text with
  | .error .diverges => .hangs
  | .error _ => .raises
  | .ok l => .html (some (htmlText l))

end Bglib.Spec
