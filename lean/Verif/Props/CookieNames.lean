import Verif.Props.Cookie
/-
C30: what answers are called.
-/
namespace Bglib
open Spec

private theorem lookup_name : ∀ (l : Table) (c : Text) (v : List Text), l.lookup c = some v → ∃ e ∈ l, e.1 = c
  | (k, w) :: l, c, v, h => by
    rw [List.lookup_cons] at h
    by_cases hk : c = k
    · exact ⟨(k, w), List.mem_cons_self .., hk.symm⟩
    · have : (c == k) = false := by simpa using hk
      rw [this] at h
      obtain ⟨e, he, h2⟩ := lookup_name l c v h
      exact ⟨e, List.mem_cons_of_mem _ he, h2⟩

private theorem tables_named : ∀ ph, ∀ e ∈ tableOf ph, t!"FIBS_" <+: e.1 ∨ t!"CLIP_" <+: e.1 := by
  have h : ∀ ph ∈ [Phase.login, .motd, .run], ∀ e ∈ tableOf ph, (t!"FIBS_".isPrefixOf e.1 || t!"CLIP_".isPrefixOf e.1) = true := by
    decide +kernel
  intro ph e he
  have := h ph (by cases ph <;> simp) e he
  simpa [List.isPrefixOf_iff_prefix] using this

/-- Whatever the messages so far and the order of the dictionary: the answer to any message is a name that begins with `FIBS_`
or `CLIP_`. -/
theorem C30_named (order : Phase → List Text) (ho : ValidOrder order) (m : Monster) (hr : Reachable order m) (msg c : Text)
    (h : (m.makeCookie order msg).1 = .ok c) : t!"FIBS_" <+: c ∨ t!"CLIP_" <+: c := by
  obtain ⟨c', h1, h2⟩ := C30_answer order ho m hr msg
  rw [h] at h1
  cases h1
  rcases h2 with ⟨_, _, rfl⟩ | ⟨_, h2 | h2⟩
  · exact .inl ⟨t!"Empty", rfl⟩
  · unfold matchesName at h2
    split at h2
    · rename_i ps hp
      obtain ⟨e, he, rfl⟩ := lookup_name _ _ _ hp
      exact tables_named _ e he
    · cases h2
  · rw [h2.1]
    cases m.phase
    · exact .inl ⟨t!"PreLogin", rfl⟩
    · exact .inl ⟨t!"MOTD", rfl⟩
    · exact .inl ⟨t!"Unknown", rfl⟩

/- Non-vacuity. -/
example : ∃ order, ValidOrder order ∧ Reachable order .new :=
  ⟨fun ph => (tableOf ph).map (·.1), fun _ => List.Perm.refl _, .new⟩

end Bglib
