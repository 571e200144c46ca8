import Verif.Spec.Shrink
/-
What the conversion of images makes of all files (for C126).
-/
namespace Bglib.Spec.Shrink
open Bglib Bglib.Shrink

theorem isCut_large (s : Text) : isCut (large s) = true := by
  unfold isCut large
  rw [List.isSuffixOf_iff_suffix]
  exact ⟨s ++ t!"-", by simp⟩

theorem saveName_large (s : Text) : saveName (large s) = small s := by
  unfold saveName large small
  have : (s ++ t!"-cut.jpg").length - 8 = s.length := by simp
  rw [this, List.take_left]

theorem sizeAsked_large (s : Text) : sizeAsked (large s) = sizeFor s := by
  have h : t!"bar".isPrefixOf (large s) = true ↔ ∃ r, s = t!"bar" ++ r := by
    rw [List.isPrefixOf_iff_prefix]
    unfold large
    constructor
    · rintro ⟨r, h⟩
      match s, h with
      | [], h => simp at h
      | [a], h => simp at h
      | [a, b], h => simp at h
      | a :: b :: c :: s, h =>
        simp only [List.cons_append, List.cons.injEq] at h
        exact ⟨s, by rw [← h.1, ← h.2.1, ← h.2.2.1]; rfl⟩
    · rintro ⟨r, rfl⟩
      exact ⟨r ++ t!"-cut.jpg", by simp⟩
  unfold sizeAsked sizeFor
  by_cases hb : ∃ r, s = t!"bar" ++ r
  · rw [if_pos hb, if_pos (h.2 hb)]
  · rw [if_neg hb, if_neg fun e => hb (h.1 e)]

theorem large_inj {s t : Text} (h : large s = large t) : s = t := List.append_cancel_right h
theorem small_inj {s t : Text} (h : small s = small t) : s = t := List.append_cancel_right h

/-- What comes of all files, and that the end is reached. -/
theorem convert_eq {Data Img : Type} (lib : Lib Data Img) : ∀ (names : List Text) (d : Dir Data), Regular names →
    CanMake lib d names → (convert lib names d).2 = true ∧
      (∀ s, large s ∈ names → (convert lib names d).1 (small s) = made lib d (large s) (sizeFor s)) ∧
      ∀ m, (∀ s, large s ∈ names → small s ≠ m) → (convert lib names d).1 m = d m
  | [], d, _, _ => ⟨rfl, fun _ hs => absurd hs List.not_mem_nil, fun _ _ => rfl⟩
  | n :: r, d, hreg, hcan => by
    have hregr : Regular r := fun k hk => hreg k (List.mem_cons_of_mem _ hk)
    by_cases hc : isCut n = true
    · obtain ⟨s, rfl, hs⟩ := hreg n (by simp) hc
      have hmade := hcan s (by simp)
      cases hi : (d (large s)).bind (lib.resized · (sizeFor s)) with
      | none => unfold made at hmade; rw [hi] at hmade; cases hmade
      | some i =>
        cases hx : lib.saved i with
        | none =>
          unfold made at hmade
          rw [hi] at hmade
          simp only [Option.bind, hx] at hmade
          cases hmade
        | some x =>
          have e : convert lib (large s :: r) d = convert lib r (d.put (small s) x) := by
            rw [convert, if_pos hc, sizeAsked_large, hi]
            dsimp only
            rw [hx]
            dsimp only
            rw [saveName_large]
          -- the small image is none of the large ones
          have hd : ∀ t, (d.put (small s) x) (large t) = d (large t) := by
            intro t
            have : large t ≠ small s := fun e => by
              have h1 := isCut_large t
              rw [e, hs] at h1; cases h1
            simp [Dir.put, this]
          have hm : ∀ t, made lib (d.put (small s) x) (large t) (sizeFor t) = made lib d (large t) (sizeFor t) := by
            intro t; unfold made; rw [hd t]
          obtain ⟨h1, h2, h3⟩ := convert_eq lib r (d.put (small s) x) hregr (fun t ht => by
            rw [hm]; exact hcan t (List.mem_cons_of_mem _ ht))
          have hms : made lib d (large s) (sizeFor s) = some x := by
            unfold made; rw [hi]; exact hx
          rw [e]
          refine ⟨h1, fun t ht => ?_, fun m hne => ?_⟩
          · rcases List.mem_cons.1 ht with ht | ht
            · have := large_inj ht
              subst this
              by_cases hin : large t ∈ r
              · rw [h2 t hin, hm]
              · rw [h3 (small t) fun u hu e => hin (small_inj e ▸ hu), hms]
                simp [Dir.put]
            · rw [h2 t ht, hm]
          · rw [h3 m fun t ht => hne t (List.mem_cons_of_mem _ ht)]
            have : m ≠ small s := fun e => hne s (by simp) e.symm
            simp [Dir.put, this]
    · have e : convert lib (n :: r) d = convert lib r d := by rw [convert, if_neg hc]
      obtain ⟨h1, h2, h3⟩ := convert_eq lib r d hregr fun t ht => hcan t (List.mem_cons_of_mem _ ht)
      rw [e]
      refine ⟨h1, fun t ht => ?_, fun m hne => h3 m fun t ht => hne t (List.mem_cons_of_mem _ ht)⟩
      rcases List.mem_cons.1 ht with ht | ht
      · rw [← ht] at hc
        exact absurd (isCut_large t) hc
      · exact h2 t ht

end Bglib.Spec.Shrink
