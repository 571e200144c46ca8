import Verif.Model.Import
/-
Where Python 2 looks for a module that an `import` names (C111).
-/
namespace Bglib.Spec
open Import

/-- The package in which a module is; a package is in itself. -/
def homeOf (m : Module) : Path := if m.package = true then m.path else m.path.tail

/-- There is a module of that name in that package. -/
def ThereIs (l : Library) (pl : Path) (h : Name) : Prop := ∃ x ∈ l, x.path = h :: pl

/-- The package in which `import h` finds a module when it stands in `m`: the home of `m`, and only if there is none, the top. -/
inductive FoundIn (l : Library) (m : Module) (h : Name) : Path → Prop
  | home : ThereIs l (homeOf m) h → FoundIn l m h (homeOf m)
  | top : ¬ ThereIs l (homeOf m) h → ThereIs l [] h → FoundIn l m h []

end Bglib.Spec
