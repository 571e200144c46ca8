import Verif.Lemmas.Import
import Verif.Spec.Import
/-
What follows from the checks of a module.
-/
namespace Bglib.Import
open Spec

/-- `bglib.model.model` may be a name of `bglib.model` whose names are imported by `*`. -/
def neighbours : List Path := [m!"bglib.model.model"]

def lostIn (m : Module) : List (List Name) :=
  (lostNames.filter fun e => samePath e.1 m.path).map (·.2)

/-- What is checked for a module of the library. -/
def Checked (m : Module) : Prop := checks library neighbours m (!samePath m.path brokenModule) (lostIn m) = true

instance (m : Module) : Decidable (Checked m) := inferInstanceAs (Decidable (_ = _))

theorem of_checks {l : Library} {more : List Path} {m : Module} {good : Bool} {lost : List (List Name)}
    (h : checks l more m good lost = true) {s : State} (hs : AfterImports l s) :
    (∃ s', importing l m.path s = some (s', good)) ∧
    (s.space m.path ≠ none → ∀ r ∈ m.later, ((resolve s m.path r).isSome ↔ r ∉ lost)) := by
  simp only [checks, Bool.and_eq_true] at h
  generalize region l m.path more = R at h
  generalize grow l R 200 [[]] [[]] = T at h
  obtain ⟨⟨hR, hT⟩, hA⟩ := h
  have hs' : Among l R T s := by
    induction hs with
    | start => exact among_nil hT
    | next _ e ih => exact importing_stays hR hT _ _ ih _ _ e
  obtain ⟨t, ht, hst⟩ := hs'
  simp only [answers, Bool.and_eq_true] at hA
  obtain ⟨⟨⟨h1, h2⟩, h3⟩, h4⟩ := hA
  have h5 := List.all_eq_true.1 h4 t ht
  simp only [Bool.and_eq_true] at h5
  obtain ⟨h5, h6⟩ := h5
  constructor
  · have k := importing_sees hR h2 hst
    revert k h5
    cases importing l m.path t with
    | none => intro h; cases h
    | some x =>
      cases importing l m.path s with
      | none => intro _ k; exact k.elim
      | some y =>
        intro h k
        have e : x.2 = good := by simpa using h
        exact ⟨y.1, by rw [← e, ← k.1]⟩
  · intro hl r hr
    have hm := mem_iff.1 h3
    have ha : avoids l R r = true := by
      refine List.all_eq_true.2 fun k hk => ?_
      have := List.all_eq_true.1 h1 k hk
      simp only [Bool.or_eq_true, Bool.not_eq_true', List.any_eq_false] at this ⊢
      rcases this with g | g
      · exact .inl g
      · exact .inr fun n hn => g n (List.mem_flatten.2 ⟨r, hr, hn⟩)
    have hl' : t.space m.path ≠ none := by
      have := hst.isSome hm
      intro e
      rw [e] at this
      cases e' : s.space m.path with
      | none => exact hl e'
      | some a => rw [e'] at this; cases this
    simp only [Bool.or_eq_true, decide_eq_true_eq] at h6
    rcases h6 with h6 | h6
    · exact absurd h6 hl'
    · have h7 := List.all_eq_true.1 h6 r hr
      rw [resolve_sees hst hm r ha]
      have h8 : (lost.any fun r' => decide (r' = r)) = true ↔ r ∈ lost := by
        simp [List.any_eq_true]
      cases e1 : (resolve t m.path r).isSome <;> cases e2 : (lost.any fun r' => decide (r' = r)) <;>
        simp_all

end Bglib.Import
