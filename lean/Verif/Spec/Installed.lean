import Verif.Spec.Import
import Verif.Spec.Setup
/-
The words used in the statements about the library when it is installed (C123).
-/
namespace Bglib.Spec
open Import

/-- A name with dots as a path. -/
def dotted : Name → Path → Text → Path
  | n, p, [] => n :: p
  | n, p, c :: r => if c = '.' then dotted 0 (n :: p) r else dotted (n * 256 + c.toNat) p r

/-- The package of a module; that of a package is itself. -/
def packageOf (m : Module) : Path := if m.package then m.path else m.path.tail

/-- The modules of the packages that the installation script names. -/
def installedLibrary : Library := library.filter fun m => Setup.installed.any fun t => samePath (dotted 0 [] t) (packageOf m)

/-- The import ends, and the module is there. -/
def Importable (l : Library) (s : State) (m : Module) : Prop := ∃ f s', each (load l f) (chain m.path) s = some (s', true)

end Bglib.Spec
