import Verif.Lemmas.ImportChecks.All
/-
C111: whatever modules were imported before, a module can be imported and the names its functions use are
found.

False of the code: `image/wxpython.py` can never be imported, and seventeen names in seven modules are
never found.  All others are, in every order of imports, although some modules import each other.
-/
namespace Bglib
open Spec Import

/-- The names are searched for as Python searches: the table says beside which module each import finds
what it names. -/
theorem C111_places : ∀ m ∈ library, ∀ c ∈ m.body, library.placed m c = true := by
  have h : (library.all fun m => m.body.all (library.placed m)) = true := by decide +kernel
  intro m hm c hc
  exact List.all_eq_true.1 (List.all_eq_true.1 h m hm) c hc

/-- The property. -/
def C111_statement : Prop := AllNamesFound library

/-- After any imports, in any order, failing or not: a module can be imported exactly if it is not
`bglib.image.wxpython`. -/
theorem C111_modules_partial (s : State) (hs : AfterImports library s) (m : Module) (hm : m ∈ library) :
    CanImport library s m ↔ m.path ≠ brokenModule := by
  obtain ⟨s', e⟩ := (of_checks (checked_all m hm) hs).1
  constructor
  · rintro ⟨s'', e'⟩ hb
    rw [e'] at e
    have := congrArg Prod.snd (Option.some.inj e)
    rw [hb] at this
    simp [samePath_self] at this
  · intro hb
    rw [samePath_ne hb] at e
    exact ⟨s', e⟩

/-- After any imports, when a module is imported, a name that its functions use is found exactly if it is
not in the list of lost names: so it never depends on what else was imported, or in which order. -/
theorem C111_names_partial (s : State) (hs : AfterImports library s) (m : Module) (hm : m ∈ library)
    (hl : s.space m.path ≠ none) (r : List Name) (hr : r ∈ m.later) :
    Found s m r ↔ (m.path, r) ∉ lostNames := by
  have h := (of_checks (checked_all m hm) hs).2 hl r hr
  have e : r ∈ lostIn m ↔ (m.path, r) ∈ lostNames := by
    simp only [lostIn, List.mem_map, List.mem_filter]
    constructor
    · rintro ⟨⟨p, r'⟩, ⟨h1, h2⟩, rfl⟩
      rw [← samePath_iff.1 h2]; exact h1
    · intro h1
      exact ⟨(m.path, r), ⟨h1, samePath_self _⟩, rfl⟩
  rw [Found, h, e]

/-- Importing never runs for ever: an import that is tried ends, well or not. -/
theorem C111_ends (s : State) (hs : AfterImports library s) (m : Module) (hm : m ∈ library) :
    ∃ s' b, importing library m.path s = some (s', b) := by
  obtain ⟨s', e⟩ := (of_checks (checked_all m hm) hs).1
  exact ⟨s', _, e⟩

/-- Each of the lost names is used by a function of a module that can be imported. -/
theorem C111_lost : ∀ e ∈ lostNames, ∃ m ∈ library, m.path = e.1 ∧ m.path ≠ brokenModule ∧ e.2 ∈ m.later := by
  have h : (lostNames.all fun e => library.any fun m =>
      samePath m.path e.1 && !samePath m.path brokenModule && m.later.any fun r => decide (r = e.2)) = true := by
    decide +kernel
  intro e he
  obtain ⟨m, hm, h1⟩ := List.any_eq_true.1 (List.all_eq_true.1 h e he)
  simp only [Bool.and_eq_true, Bool.not_eq_true', List.any_eq_true, decide_eq_true_eq] at h1
  obtain ⟨⟨h1, h2⟩, r, hr, rfl⟩ := h1
  refine ⟨m, hm, samePath_iff.1 h1, fun hb => ?_, hr⟩
  rw [hb, samePath_self] at h2
  cases h2

/-- The state after importing `bglib.record.gnubg` alone. -/
private def afterGnubg : State := match importing library m_bglib_record_gnubg.path [] with
  | some (s, _) => s
  | none => []

private theorem afterGnubg_eq : importing library m_bglib_record_gnubg.path [] = some (afterGnubg, true) := by
  have h : (importing library m_bglib_record_gnubg.path []).map (·.2) = some true := by decide +kernel
  unfold afterGnubg
  revert h
  cases importing library m_bglib_record_gnubg.path [] with
  | none => intro h; cases h
  | some x =>
    intro h
    have : x.2 = true := by simpa using h
    rw [← this]

/-- The property is false of the code: when `bglib.record.gnubg` is imported, the name
`bglib.model.board.board` of its line 60 is not found. -/
theorem C111_false : ¬ C111_statement := by
  intro h
  have hm : m_bglib_record_gnubg ∈ library := by simp [library]
  have hs : AfterImports library afterGnubg := .next .start afterGnubg_eq
  have hl : afterGnubg.space m_bglib_record_gnubg.path ≠ none := by decide +kernel
  have hf := (h _ hs _ hm).2 hl p!"bglib.model.board.board" (by decide)
  rw [C111_names_partial _ hs _ hm hl _ (by decide)] at hf
  exact hf (by decide)

/-- Not vacuous: after importing `bglib.record.gnubg`, the name `decode` that its functions use is found. -/
example : AfterImports library afterGnubg ∧ afterGnubg.space m_bglib_record_gnubg.path ≠ none ∧
    Found afterGnubg m_bglib_record_gnubg p!"decode" := by
  refine ⟨.next .start afterGnubg_eq, by decide +kernel, ?_⟩
  have : (resolve afterGnubg m_bglib_record_gnubg.path p!"decode").isSome = true := by decide +kernel
  exact this

/-- Not vacuous: in the middle of importing `bglib.image.css`, `bglib.image.base` is imported, which
imports `bglib.image.css` again; both come out well, as the other way round. -/
example : (importing library m!"bglib.image.css" []).map (·.2) = some true ∧
    (importing library m!"bglib.image.base" []).map (·.2) = some true := by decide +kernel

/-- Not vacuous: the broken module is one of the library. -/
example : library.has brokenModule = true := by decide +kernel

end Bglib
