import Verif.Spec.Nearest
import Verif.Lemmas.Import
import Verif.Model.ImportTable
/-
C111: modules are looked for as Python 2 does, in every library.
-/
namespace Bglib
open Spec Import

private theorem has_iff (l : Library) (pl : Path) (h : Name) : l.has (h :: pl) = true ↔ ThereIs l pl h := by
  simp only [Library.has, Library.find, List.find?_isSome, ThereIs, samePath_iff]

/-- In every library, `import` finds a module exactly where Python 2 looks for it. -/
theorem C111_nearest (l : Library) (m : Module) (h : Name) (pl : Path) : l.locate m h = some pl ↔ FoundIn l m h pl := by
  have e : l.locate m h = if l.has (h :: homeOf m) then some (homeOf m) else if l.has [h] then some [] else none := rfl
  rw [e]
  by_cases h1 : l.has (h :: homeOf m) = true
  · rw [if_pos h1]
    constructor
    · intro k; cases k; exact .home ((has_iff _ _ _).1 h1)
    · intro k
      cases k with
      | home => rfl
      | top n => exact absurd ((has_iff _ _ _).1 h1) n
  · rw [if_neg h1]
    have n1 : ¬ ThereIs l (homeOf m) h := fun k => h1 ((has_iff _ _ _).2 k)
    by_cases h2 : l.has [h] = true
    · rw [if_pos h2]
      constructor
      · intro k; cases k; exact .top n1 ((has_iff _ _ _).1 h2)
      · intro k
        cases k with
        | home k => exact absurd k n1
        | top => rfl
    · rw [if_neg h2]
      constructor
      · intro k; cases k
      · intro k
        cases k with
        | home k => exact absurd k n1
        | top _ k => exact absurd ((has_iff _ _ _).2 k) h2

/-- Non-vacuity: a package that has a module of the same name as one at the top; its modules and itself find their own. -/
example : FoundIn [⟨[2, 1], false, [], []⟩, ⟨[1], true, [], []⟩, ⟨[2], false, [], []⟩] ⟨[1], true, [], []⟩ 2 [1] ∧
    FoundIn [⟨[2, 1], false, [], []⟩, ⟨[1], true, [], []⟩, ⟨[2], false, [], []⟩] ⟨[2], false, [], []⟩ 2 [] :=
  ⟨.home ⟨⟨[2, 1], false, [], []⟩, by simp, rfl⟩, .home ⟨⟨[2], false, [], []⟩, by simp, rfl⟩⟩

/-- The packages of the library are exactly the modules that have others inside, so that the homes of modules are as the
directories. -/
theorem C111_packages : ∀ m ∈ library, m.package = true ↔ ∃ x ∈ library, x.path.tail = m.path := by
  decide +kernel

example : (∃ m ∈ library, m.package = true) ∧ ∃ m ∈ library, m.package = false := by decide +kernel

end Bglib
