import Verif.Spec.Make
import Verif.Props.Requirements
import Verif.Props.Setup
/-
C125: after `make setup.py`, setup.py is the script for the files.

False: the rule names freeze.txt, but neither VERSION nor DESCRIPTION.
-/
namespace Bglib
open Bglib.Make Bglib.Spec.Make

private theorem written_eq (d : Disk) (t : Text) : Setup.main ⟨d.version, d.description, t⟩ = .ok (written d t) := by
  obtain ⟨out, h⟩ := C103_written ⟨d.version, d.description, t⟩
  unfold written
  rw [h]

attribute [local irreducible] Setup.main written

/-- What holds all the time: no file is of the future, and a script that is not older than freeze.txt has its requirements. -/
private theorem kept {ok : Disk → Op → Prop} {n : Nat} {d : Disk} (h : Comes ok n d) :
    (∀ f, d.freeze = some f → f.time ≤ n) ∧ (∀ s, d.setup = some s → s.time ≤ n) ∧
      ∀ f s, d.freeze = some f → d.setup = some s → f.time ≤ s.time → ∃ v e, Setup.main ⟨v, e, f.text⟩ = .ok s.text := by
  induction h with
  | start n d h1 h2 => exact ⟨h2, fun s hs => (by rw [h1] at hs; cases hs), fun f s _ hs => (by rw [h1] at hs; cases hs)⟩
  | next n m d o _ hnm _ ih =>
    obtain ⟨h1, h2, h3⟩ := ih
    have h1' : ∀ f, d.freeze = some f → f.time ≤ m := fun f hf => Nat.le_trans (h1 f hf) (Nat.le_of_lt hnm)
    have h2' : ∀ s, d.setup = some s → s.time ≤ m := fun f hf => Nat.le_trans (h2 f hf) (Nat.le_of_lt hnm)
    cases o with
    | editVersion t => exact ⟨h1', h2', h3⟩
    | editDescription t => exact ⟨h1', h2', h3⟩
    | editFreeze t =>
      refine ⟨fun f hf => ?_, h2', fun f s hf hs hle => ?_⟩
      · cases hf; exact Nat.le_refl _
      · cases hf
        have := h2 s hs
        dsimp only at hle
        omega
    | removeFreeze => exact ⟨fun f hf => (by cases hf), h2', fun f s hf => (by cases hf)⟩
    | clean => exact ⟨h1', fun s hs => (by cases hs), fun f s _ hs => by cases hs⟩
    | make pip =>
      have hf : (makeFreeze pip m d).time ≤ m := by
        unfold makeFreeze
        split
        · rename_i f hf; exact h1' f hf
        · exact Nat.le_refl _
      cases hs : d.setup with
      | none =>
        simp only [step, makeSetup, hs]
        exact ⟨fun f e => (by cases e; exact hf), fun s e => (by cases e; exact Nat.le_refl _), fun f s e1 e2 _ => (by
          cases e1; cases e2; exact ⟨_, _, written_eq d _⟩)⟩
      | some s =>
        simp only [step, makeSetup, hs]
        refine ⟨fun f e => (by cases e; exact hf), fun s' e => ?_, fun f s' e1 e2 hle => ?_⟩
        · cases e
          split
          · exact Nat.le_refl _
          · exact h2' s hs
        · cases e1
          cases e2
          split at hle
          · rename_i hlt
            rw [if_pos hlt]
            exact ⟨_, _, written_eq d _⟩
          · rename_i hlt
            rw [if_neg hlt]
            cases hfz : d.freeze with
            | none =>
              have : (makeFreeze pip m d).time = m := by simp [makeFreeze, hfz]
              have := h2 s hs
              omega
            | some f =>
              have e : makeFreeze pip m d = f := by simp [makeFreeze, hfz]
              rw [e] at hle ⊢
              exact h3 f s hfz hs hle

/-- Whatever was done before: after `make setup.py` the requirements are those of freeze.txt.  The version and the description
are some. -/
theorem C125_requirements (n : Nat) (d : Disk) (h : Comes (fun _ _ => True) n d) (m : Nat) (hm : n < m) (pip : Text) :
    ∃ f s v e, (step m d (.make pip)).freeze = some f ∧ (step m d (.make pip)).setup = some s ∧
      Setup.main ⟨v, e, f.text⟩ = .ok s.text := by
  obtain ⟨_, h2, h3⟩ := kept h
  cases hs : d.setup with
  | none =>
    simp only [step, makeSetup, hs]
    exact ⟨_, _, _, _, rfl, rfl, written_eq d _⟩
  | some s =>
    simp only [step, makeSetup, hs]
    by_cases hlt : s.time < (makeFreeze pip m d).time
    · rw [if_pos hlt]
      exact ⟨_, _, _, _, rfl, rfl, written_eq d _⟩
    · rw [if_neg hlt]
      cases hfz : d.freeze with
      | none =>
        have : (makeFreeze pip m d).time = m := by simp [makeFreeze, hfz]
        have := h2 s hs
        omega
      | some f =>
        have e : makeFreeze pip m d = f := by simp [makeFreeze, hfz]
        rw [e] at hlt ⊢
        obtain ⟨v, x, hx⟩ := h3 f s hfz hs (by omega)
        exact ⟨f, s, v, x, rfl, rfl, hx⟩

private theorem kept_careful {n : Nat} {d : Disk} (h : Comes Careful n d) :
    ∀ f s, d.freeze = some f → d.setup = some s → f.time ≤ s.time → Setup.main ⟨d.version, d.description, f.text⟩ = .ok s.text := by
  induction h with
  | start n d h1 _ => exact fun f s _ hs => by rw [h1] at hs; cases hs
  | next n m d o hd hnm hok ih =>
    obtain ⟨h1, h2, _⟩ := kept hd
    cases o with
    | editVersion t =>
      intro f s _ hs
      have := hok trivial
      rw [show d.setup = some s from hs] at this; cases this
    | editDescription t =>
      intro f s _ hs
      have := hok trivial
      rw [show d.setup = some s from hs] at this; cases this
    | editFreeze t =>
      intro f s hf hs hle
      cases hf
      have := h2 s hs
      dsimp only at hle
      omega
    | removeFreeze => exact fun f s hf => by cases hf
    | clean => exact fun f s _ hs => by cases hs
    | make pip =>
      cases hs : d.setup with
      | none =>
        simp only [step, makeSetup, hs]
        intro f s e1 e2 _
        cases e1; cases e2
        exact written_eq d _
      | some s =>
        simp only [step, makeSetup, hs]
        intro f s' e1 e2 hle
        cases e1
        cases e2
        split at hle
        · rename_i hlt
          rw [if_pos hlt]
          exact written_eq d _
        · rename_i hlt
          rw [if_neg hlt]
          cases hfz : d.freeze with
          | none =>
            have : (makeFreeze pip m d).time = m := by simp [makeFreeze, hfz]
            have := h2 s hs
            omega
          | some f =>
            have e : makeFreeze pip m d = f := by simp [makeFreeze, hfz]
            rw [e] at hle ⊢
            exact ih f s hfz hs hle

/-- If VERSION and DESCRIPTION are changed only where there is no setup.py, and nothing is done twice at the same time, then
after `make setup.py` it is the script for the files.  Missing: other changes (C125_false), files of the same time
(C125_false_clone). -/
theorem C125_partial (n : Nat) (d : Disk) (h : Comes Careful n d) (m : Nat) (hm : n < m) (pip : Text) :
    UpToDate (step m d (.make pip)) := by
  obtain ⟨h1, h2, _⟩ := kept (.next n m d (.make pip) h hm (fun hu => hu.elim))
  have key := kept_careful (.next n m d (.make pip) h hm (fun hu => hu.elim))
  have hs0 := (kept h).2.1
  cases hs : d.setup with
  | none =>
    simp only [step, makeSetup, hs] at key ⊢
    exact ⟨_, _, rfl, rfl, written_eq d _⟩
  | some s =>
    simp only [step, makeSetup, hs] at key ⊢
    refine ⟨_, _, rfl, rfl, key _ _ rfl rfl ?_⟩
    by_cases hlt : s.time < (makeFreeze pip m d).time
    · rw [if_pos hlt]
      simp only [step, makeSetup, hs] at h1
      exact h1 _ rfl
    · rw [if_neg hlt]
      omega

/-- False if the version is changed: setup.py keeps the old one. -/
theorem C125_false : ∃ n d m, Comes (fun _ _ => True) n d ∧ n < m ∧ ¬ UpToDate (step m d (.make [])) := by
  refine ⟨2, _, 3, .next 1 2 _ (.editVersion t!"2") (.next 0 1 ⟨t!"1", [], some ⟨[], 0⟩, none⟩ (.make []) (.start 0 _ rfl ?_) (by decide)
    trivial) (by decide) trivial, by decide, ?_⟩
  · intro f hf; cases hf; exact Nat.le_refl _
  · rintro ⟨f, s, hf, hs, h⟩
    have e1 : f.text = [] := by cases hf; rfl
    have e2 : Setup.main ⟨t!"1", [], []⟩ = .ok s.text := by
      cases hs
      exact written_eq ⟨t!"1", [], some ⟨[], 0⟩, none⟩ []
    rw [e1] at h
    have h' : Setup.main ⟨t!"2", [], []⟩ = .ok s.text := h
    have hne : ∀ t, Setup.main ⟨t!"1", [], []⟩ = .ok t → Setup.main ⟨t!"2", [], []⟩ = .ok t → False := by
      intro t h1 h2
      rw [Bglib.Spec.Setup.main_eq] at h1 h2
      have e := (Except.ok.inj h1).trans (Except.ok.inj h2).symm
      revert e
      decide +kernel
    exact hne _ e2 h'

/-- False of the files that come with the library if a copy gives all of them the same time: `make setup.py` does nothing, and
setup.py is not the script for the files. -/
theorem C125_false_clone (n m : Nat) (pip : Text) :
    let d : Disk := ⟨Setup.files.version, Setup.files.description, some ⟨Setup.files.freeze, n⟩, some ⟨Setup.shippedScript, n⟩⟩
    step m d (.make pip) = d ∧ ¬ UpToDate d := by
  constructor
  · simp [step, makeSetup, makeFreeze]
  · rintro ⟨f, s, hf, hs, h⟩
    cases hf
    cases hs
    exact C124_false_shipped.1 h

/-- Non-vacuity: a version changed after `make clean`. -/
example : Comes Careful 3 ⟨t!"2", [], some ⟨[], 0⟩, none⟩ :=
  .next 2 3 _ (.editVersion t!"2") (.next 1 2 _ .clean (.next 0 1 ⟨t!"1", [], some ⟨[], 0⟩, none⟩ (.make [])
    (.start 0 _ rfl (fun f hf => by cases hf; exact Nat.le_refl _)) (by decide) (fun h => h.elim)) (by decide) (fun h => h.elim))
    (by decide) (fun _ => rfl)

end Bglib
