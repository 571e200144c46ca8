import Verif.Model.Setup
/-
Model of the rules of `Makefile` that write setup.py and freeze.txt, as make applies them.

Times are those of the clock of the file system.  Of VERSION and DESCRIPTION no times are kept: no rule names them.  The
commands do not fail (`make_setup.py` never does, C103_written).
-/
namespace Bglib.Make
open Bglib

/-- A file with the time it was written. -/
structure File where
  text : Text
  time : Nat
  deriving DecidableEq, Repr

structure Disk where
  version : Text
  description : Text
  freeze : Option File
  setup : Option File
  deriving DecidableEq, Repr

/-- What is done in the directory of the library.  `pip` is what `pip freeze` would print. -/
inductive Op where
  | editVersion (t : Text)
  | editDescription (t : Text)
  | editFreeze (t : Text)
  | removeFreeze
  | make (pip : Text)
  | clean
  deriving DecidableEq, Repr

/-- The rule for freeze.txt, Makefile:21-22: without prerequisites, so only if there is no such file. -/
def makeFreeze (pip : Text) (now : Nat) (d : Disk) : File := match d.freeze with
  | some f => f
  | none => ⟨pip, now⟩

/-- `python make_setup.py > setup.py`, Makefile:19 -/
def written (d : Disk) (freeze : Text) : Text := match Setup.main ⟨d.version, d.description, freeze⟩ with
  | .ok t => t
  | .error _ => []

/-- The rule for setup.py, Makefile:18-19: if there is none, or freeze.txt is newer. -/
def makeSetup (pip : Text) (now : Nat) (d : Disk) : Disk :=
  let f := makeFreeze pip now d
  match d.setup with
  | none => { d with freeze := some f, setup := some ⟨written d f.text, now⟩ }
  | some s => { d with freeze := some f, setup := some (if s.time < f.time then ⟨written d f.text, now⟩ else s) }

/-- Something is done at the time `now`; `clean`: Makefile:12-13. -/
def step (now : Nat) (d : Disk) : Op → Disk
  | .editVersion t => { d with version := t }
  | .editDescription t => { d with description := t }
  | .editFreeze t => { d with freeze := some ⟨t, now⟩ }
  | .removeFreeze => { d with freeze := none }
  | .make pip => makeSetup pip now d
  | .clean => { d with setup := none }

end Bglib.Make
