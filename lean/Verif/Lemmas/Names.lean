import Verif.Lemmas.Pattern
/-
The names of the groups a pattern can give.
-/
namespace Bglib

/-- The names of the groups of a pattern. -/
def Re.names : Re → List Text
  | .eps | .bol | .eol | .set _ => []
  | .seq a b | .alt a b => a.names ++ b.names
  | .rep a _ _ => a.names
  | .group n a => n :: a.names

theorem all_names (r : Re) (p q : Place) (h : q ∈ r.all p) : ∃ g, q.groups = g ++ p.groups ∧ ∀ x ∈ g, x.1 ∈ r.names := by
  induction r generalizing p q with
  | eps => cases List.mem_singleton.1 h; exact ⟨[], rfl, by simp⟩
  | set s =>
    obtain ⟨_, _, _, e⟩ := mem_set h
    exact ⟨[], e, by simp⟩
  | bol => obtain ⟨_, rfl⟩ := mem_bol h; exact ⟨[], rfl, by simp⟩
  | eol =>
    unfold Re.all at h
    split at h
    · cases List.mem_singleton.1 h; exact ⟨[], rfl, by simp⟩
    · cases h
  | seq a b iha ihb =>
    obtain ⟨x, hx, hq⟩ := mem_seq h
    obtain ⟨g1, e1, n1⟩ := iha p x hx
    obtain ⟨g2, e2, n2⟩ := ihb x q hq
    refine ⟨g2 ++ g1, by rw [e2, e1, List.append_assoc], fun y hy => List.mem_append.2 ?_⟩
    rcases List.mem_append.1 hy with hy | hy
    · exact .inr (n2 y hy)
    · exact .inl (n1 y hy)
  | alt a b iha ihb =>
    rcases mem_alt h with h | h
    · obtain ⟨g, e, n⟩ := iha p q h
      exact ⟨g, e, fun y hy => List.mem_append.2 (.inl (n y hy))⟩
    · obtain ⟨g, e, n⟩ := ihb p q h
      exact ⟨g, e, fun y hy => List.mem_append.2 (.inr (n y hy))⟩
  | rep a min max ih =>
    replace h : q ∈ repAll a.all (max.getD p.rest.length) min p := h
    generalize max.getD p.rest.length = n at h
    show ∃ g, q.groups = g ++ p.groups ∧ ∀ x ∈ g, x.1 ∈ a.names
    induction n generalizing min p with
    | zero =>
      unfold repAll at h
      split at h
      · cases List.mem_singleton.1 h; exact ⟨[], rfl, by simp⟩
      · cases h
    | succ n ihn =>
      unfold repAll at h
      rcases List.mem_append.1 h with h | h
      · obtain ⟨x, hx, hq⟩ := List.mem_flatMap.1 h
        obtain ⟨g1, e1, n1⟩ := ih p x (List.mem_filter.1 hx).1
        obtain ⟨g2, e2, n2⟩ := ihn _ x hq
        refine ⟨g2 ++ g1, by rw [e2, e1, List.append_assoc], fun y hy => ?_⟩
        rcases List.mem_append.1 hy with hy | hy
        · exact n2 y hy
        · exact n1 y hy
      · split at h
        · cases List.mem_singleton.1 h; exact ⟨[], rfl, by simp⟩
        · cases h
  | group n a ih =>
    obtain ⟨x, s, hx, _, rfl⟩ := mem_group h
    obtain ⟨g, e, hn⟩ := ih p x hx
    refine ⟨(n, s) :: g, by simp [e], fun y hy => ?_⟩
    rcases List.mem_cons.1 hy with rfl | hy
    · exact List.mem_cons_self
    · exact List.mem_cons_of_mem _ (hn y hy)

end Bglib
