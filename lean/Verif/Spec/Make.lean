import Verif.Model.Make
/-
The words used in the statements about the rules of the Makefile (C125).
-/
namespace Bglib.Spec.Make
open Bglib Bglib.Make

/-- The files that `make_setup.py` reads are changed without notice. -/
def Unnoticed : Op → Prop
  | .editVersion _ => True
  | .editDescription _ => True
  | _ => False

/-- What comes about in a directory without setup.py, if nothing is done at the same time as something else, and what is done
satisfies `ok`. -/
inductive Comes (ok : Disk → Op → Prop) : Nat → Disk → Prop where
  | start (n : Nat) (d : Disk) : d.setup = none → (∀ f, d.freeze = some f → f.time ≤ n) → Comes ok n d
  | next (n m : Nat) (d : Disk) (o : Op) : Comes ok n d → n < m → ok d o → Comes ok m (step m d o)

/-- Before VERSION or DESCRIPTION are changed, `make clean`. -/
def Careful (d : Disk) (o : Op) : Prop := Unnoticed o → d.setup = none

/-- The script is that of the files. -/
def UpToDate (d : Disk) : Prop := ∃ f s, d.freeze = some f ∧ d.setup = some s ∧
  Setup.main ⟨d.version, d.description, f.text⟩ = .ok s.text

end Bglib.Spec.Make
