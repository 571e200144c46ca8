import Verif.Lemmas.Installed
import Verif.Props.Imports
/-
C123: the library works as well when it is installed as it does where it was written.

False of the code as C111 is.  But nothing more is lost: no module that is installed needs one that is not.
-/
namespace Bglib
open Spec Import

/-- The property: whatever modules of the installed library were imported before, each of them can be imported, and all names
that its functions use are found then. -/
def C123_statement : Prop := ∀ s, AfterImports installedLibrary s → ∀ m ∈ installedLibrary, Importable installedLibrary s m ∧
  (s.space m.path ≠ none → ∀ r ∈ m.later, Found s m r)

private theorem reliant : selfReliant library (fun m => Setup.installed.any fun t => samePath (dotted 0 [] t) (packageOf m))
    installedLibrary = true := by decide +kernel

private theorem partOf : PartOf library installedLibrary := part_filter reliant

/-- The installed modules search where they would search without the installation. -/
theorem C123_places : ∀ m ∈ installedLibrary, ∀ c ∈ m.body, installedLibrary.placed m c = true := by
  have h : (installedLibrary.all fun m => m.body.all (installedLibrary.placed m)) = true := by decide +kernel
  intro m hm c hc
  exact List.all_eq_true.1 (List.all_eq_true.1 h m hm) c hc

/-- What a program can reach by importing installed modules, it could reach without the installation. -/
theorem C123_states (s : State) (hs : AfterImports installedLibrary s) : AfterImports library s := by
  induction hs with
  | start => exact .start
  | @next s s' p b _ e ih =>
    have hl : installedLibrary.length + 1 ≤ library.length + 1 :=
      Nat.succ_le_succ (List.length_filter_le _ _)
    obtain ⟨p', b', e'⟩ := importing_part partOf _ p s s' b (each_le hl _ _ _ e)
    exact .next ih e'

/-- After any imports of installed modules: an installed module can be imported exactly if it is not
`bglib.image.wxpython`. -/
theorem C123_modules_partial (s : State) (hs : AfterImports installedLibrary s) (m : Module) (hm : m ∈ installedLibrary) :
    Importable installedLibrary s m ↔ m.path ≠ brokenModule := by
  have hml : m ∈ library := (List.mem_filter.1 hm).1
  have hp : installedLibrary.has m.path = true := has_iff.2 ⟨m, hm, rfl⟩
  rw [← C111_modules_partial s (C123_states s hs) m hml]
  constructor
  · rintro ⟨f, s', e⟩
    rw [chain_load partOf f hp] at e
    obtain ⟨s'', b, e'⟩ := C111_ends s (C123_states s hs) m hml
    have h1 := each_le (Nat.le_max_left f (library.length + 1)) _ _ _ e
    have h2 := each_le (Nat.le_max_right f (library.length + 1)) _ _ _ e'
    rw [h1] at h2
    cases h2
    exact ⟨s', e'⟩
  · rintro ⟨s', e⟩
    exact ⟨library.length + 1, s', by rw [chain_load partOf _ hp]; exact e⟩

/-- After any imports of installed modules, when a module is imported, a name that its functions use is found exactly if it is
not in the list of lost names: the installation loses none. -/
theorem C123_names_partial (s : State) (hs : AfterImports installedLibrary s) (m : Module) (hm : m ∈ installedLibrary)
    (hl : s.space m.path ≠ none) (r : List Name) (hr : r ∈ m.later) : Found s m r ↔ (m.path, r) ∉ lostNames :=
  C111_names_partial s (C123_states s hs) m (List.mem_filter.1 hm).1 hl r hr

/-- A module that is not installed cannot be imported. -/
theorem C123_missing (s : State) (hs : AfterImports installedLibrary s) (m : Module) (hm : m ∈ library) (hn : m ∉ installedLibrary) :
    ¬ Importable installedLibrary s m := by
  rintro ⟨f, s', e⟩
  have ho : OfLibrary installedLibrary s := by
    clear e
    induction hs with
    | start => intro e he; cases he
    | next _ e ih => exact keeping_each (keeping_load _) _ _ ih _ _ e
  have hne : m.path ≠ [] := by
    have h : (library.all fun m => !samePath m.path []) = true := by decide +kernel
    intro hp
    have := List.all_eq_true.1 h m hm
    rw [hp] at this
    cases this
  exact not_there (filter_has reliant hm hn) hne f ho e

/-- The property is false of the code: `bglib.image.wxpython` is installed and cannot be imported. -/
theorem C123_false : ¬ C123_statement := by
  intro h
  have hb : installedLibrary.has brokenModule = true := by decide +kernel
  obtain ⟨m, hm, e⟩ := has_iff.1 hb
  exact (C123_modules_partial [] .start m hm).1 (h [] .start m hm).1 e

/-- Not vacuous: `bglib.doc.bgwiki` is installed, can be imported, and is imported then. -/
example : installedLibrary.has m!"bglib.doc.bgwiki" = true ∧
    (importing installedLibrary m!"bglib.doc.bgwiki" []).map (fun r => (r.2, (r.1.space m!"bglib.doc.bgwiki").isSome)) =
      some (true, true) := by decide +kernel

/-- Not vacuous: three packages are left out, with all their modules. -/
example : (library.filter fun m => !installedLibrary.has m.path).map (packageOf ·) ≠ [] ∧
    installedLibrary.has m!"bglib.record" = false ∧ installedLibrary.has m!"bglib.stat" = false ∧
    installedLibrary.has m!"bglib.encoding.bearoff" = false ∧ installedLibrary.has m!"bglib.record.gnubg" = false := by decide +kernel

end Bglib
