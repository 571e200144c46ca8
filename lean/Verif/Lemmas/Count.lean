import Verif.Model.Bearoff
import Verif.Spec.Count
import Mathlib.Algebra.Order.Antidiag.Pi
import Mathlib.Algebra.Order.Antidiag.FinsuppEquiv
import Mathlib.Algebra.BigOperators.Intervals
import Mathlib.Data.Finset.Powerset
import Mathlib.Algebra.Order.Antidiag.Nat
namespace Bglib
open Spec Finset

theorem card_arr (s : Finset (Fin 26)) (n : ℕ) : #(piAntidiag s n) = (#s + n - 1).choose n := by
  rw [← card_finsuppAntidiag_nat_eq_choose]
  refine card_nbij' (fun f => Finsupp.equivFunOnFinite.symm f) (fun f => f) ?_ ?_ ?_ ?_
  · intro f hf
    simp only [mem_coe, mem_piAntidiag, mem_finsuppAntidiag] at hf ⊢
    refine ⟨hf.1, fun i hi => hf.2 i ?_⟩
    simpa using hi
  · intro f hf
    simp only [mem_coe, mem_piAntidiag, mem_finsuppAntidiag] at hf ⊢
    exact ⟨hf.1, fun i hi => hf.2 (by simpa using hi)⟩
  · intro f _; rfl
  · intro f _; ext; rfl

abbrev Arr := Fin 26 → ℕ

def pts : Finset (Fin 26) := univ.filter (fun i => i.val < 24)
def away : Finset (Fin 26) := {24, 25}

theorem pts_card : #pts = 24 := by decide

/-- The points a side holds. -/
def occ (a : Arr) : Finset (Fin 26) := pts.filter (fun i => a i ≠ 0)

def sideA (S : Finset (Fin 26)) : Finset Arr := (piAntidiag univ 15).filter (fun a => occ a = S)

theorem mem_pts (i : Fin 26) : i ∈ pts ↔ i.val < 24 := by simp [pts]

theorem away_not (i : Fin 26) : i ∈ away ↔ ¬ i.val < 24 := by
  revert i; decide

set_option linter.constructorNameAsVariable false in
theorem card_sideA (S : Finset (Fin 26)) (hS : S ⊆ pts) :
    #(sideA S) = if #S ≤ 15 then triceD (#S + 2) (15 - #S) else 0 := by
  have hind : ∀ a : Arr, (∑ i, (if i ∈ S then 1 else 0 : ℕ)) = #S := by intro _; simp
  split
  · next hc =>
    have hdis : Disjoint S away := by
      rw [Finset.disjoint_left]; intro i hi h2
      exact (away_not i).1 h2 ((mem_pts i).1 (hS hi))
    have hcard : #(S ∪ away) = #S + 2 := by rw [card_union_of_disjoint hdis]; rfl
    rw [triceD, ← hcard, ← card_arr]
    have hsum : ∀ (f : Arr) (T : Finset (Fin 26)), (∀ i, f i ≠ 0 → i ∈ T) → T.sum f = ∑ i, f i := by
      intro f T h
      exact sum_subset (subset_univ T) (fun i _ hi => Classical.byContradiction fun h2 => hi (h i h2))
    refine card_nbij' (fun a i => a i - if i ∈ S then 1 else 0) (fun b i => b i + if i ∈ S then 1 else 0)
      ?_ ?_ ?_ ?_
    · intro a ha
      simp only [sideA, mem_coe, mem_filter, mem_piAntidiag, mem_univ, implies_true, and_true] at ha ⊢
      obtain ⟨h15, hocc⟩ := ha
      have h15 : ∑ i, a i = 15 := h15
      have hpos : ∀ i, (if i ∈ S then 1 else 0) ≤ a i := by
        intro i; split
        · next hi => rw [← hocc] at hi; simp [occ] at hi; omega
        · omega
      have hsup : ∀ i, (a i - if i ∈ S then 1 else 0) ≠ 0 → i ∈ S ∪ away := by
        intro i hi
        rw [mem_union, away_not]
        by_cases h24 : i.val < 24
        · left; rw [← hocc]; simp only [occ, mem_filter, mem_pts]; exact ⟨h24, by omega⟩
        · right; exact h24
      refine ⟨?_, hsup⟩
      rw [hsum _ _ hsup]
      have := hind a
      have h2 : (∑ i, (a i - if i ∈ S then 1 else 0)) + ∑ i, (if i ∈ S then 1 else 0 : ℕ) = ∑ i, a i := by
        rw [← sum_add_distrib]; exact sum_congr rfl fun i _ => Nat.sub_add_cancel (hpos i)
      omega
    · intro b hb
      simp only [sideA, mem_coe, mem_filter, mem_piAntidiag, mem_univ, implies_true, and_true] at hb ⊢
      obtain ⟨h1, h2⟩ := hb
      rw [hsum _ _ h2] at h1
      refine ⟨by rw [sum_add_distrib, hind b, h1]; omega, ?_⟩
      ext i
      simp only [occ, mem_filter]
      constructor
      · rintro ⟨hp, hne⟩
        by_cases hi : i ∈ S
        · exact hi
        · rw [if_neg hi] at hne
          have := h2 i hne
          rw [mem_union, away_not] at this
          rcases this with h | h
          · exact h
          · exact absurd ((mem_pts i).1 hp) h
      · intro hi; exact ⟨hS hi, by rw [if_pos hi]; omega⟩
    · intro a ha
      simp only [sideA, mem_coe, mem_filter] at ha
      funext i
      dsimp only
      split
      · next hi => rw [← ha.2] at hi; simp [occ] at hi; omega
      · omega
    · intro b _; funext i; dsimp only; omega
  · next hc =>
    rw [card_eq_zero, Finset.eq_empty_iff_forall_notMem]
    intro a ha
    simp only [sideA, mem_filter, mem_piAntidiag, mem_univ, implies_true, and_true] at ha
    have : (∑ i, (if i ∈ S then 1 else 0 : ℕ)) ≤ ∑ i, a i := by
      refine sum_le_sum fun i _ => ?_
      split
      · next hi => rw [← ha.2] at hi; simp [occ] at hi; omega
      · omega
    rw [hind a] at this
    have h15 : ∑ i, a i = 15 := ha.1
    omega

open Classical in
noncomputable def allPositions : Finset (Arr × Arr) :=
  (piAntidiag univ 15 ×ˢ piAntidiag univ 15).filter IsPosition

theorem mem_allPositions (p : Arr × Arr) : p ∈ allPositions ↔ IsPosition p := by
  simp only [allPositions, mem_filter, mem_product, mem_piAntidiag, mem_univ, implies_true, and_true,
    and_iff_right_iff_imp]
  intro h; exact ⟨h.1, h.2.1⟩

theorem card_fibre (S : Finset (Fin 26)) (hS : S ⊆ pts) :
    #(allPositions.filter (fun p => occ p.1 = S)) =
      (if #S ≤ 15 then triceD (#S + 2) (15 - #S) else 0) * triceD (26 - #S) 15 := by
  have : allPositions.filter (fun p => occ p.1 = S) = sideA S ×ˢ piAntidiag (univ \ S) 15 := by
    ext ⟨a, b⟩
    simp only [mem_filter, mem_allPositions, IsPosition, mem_product, sideA, mem_piAntidiag, mem_univ,
      implies_true, and_true, mem_sdiff, true_and]
    have hsum : (∀ i, b i ≠ 0 → i ∉ S) → (univ \ S).sum b = ∑ i, b i := fun h =>
      sum_subset (subset_univ _) (fun i _ hi => Classical.byContradiction fun h2 => hi (by simp [h i h2]))
    constructor
    · rintro ⟨⟨h1, h2, h3⟩, h4⟩
      have hb : ∀ i, b i ≠ 0 → i ∉ S := by
        intro i hi hS2
        rw [← h4] at hS2
        simp only [occ, mem_filter, mem_pts] at hS2
        rcases h3 i hS2.1 with h | h
        · exact hS2.2 h
        · exact hi h
      exact ⟨⟨h1, h4⟩, by rw [hsum hb]; exact h2, hb⟩
    · rintro ⟨⟨h1, h4⟩, h2, hb⟩
      rw [hsum hb] at h2
      refine ⟨⟨h1, h2, fun i hi => ?_⟩, h4⟩
      by_cases ha : a i = 0
      · exact Or.inl ha
      · right
        refine Classical.byContradiction fun h => hb i h ?_
        rw [← h4]; simp only [occ, mem_filter, mem_pts]; exact ⟨hi, ha⟩
  rw [this, card_product, card_sideA S hS, card_arr, card_univ_sdiff, Fintype.card_fin, triceD, triceD]

theorem card_allPositions :
    #allPositions = ∑ m ∈ range 25, Nat.choose 24 m *
      ((if m ≤ 15 then triceD (m + 2) (15 - m) else 0) * triceD (26 - m) 15) := by
  rw [card_eq_sum_card_fiberwise (f := fun p => occ p.1) (t := pts.powerset)
    (by intro p _; exact mem_coe.2 (mem_powerset.2 (filter_subset _ _)))]
  rw [sum_congr rfl (fun S hS => card_fibre S (mem_powerset.1 hS))]
  rw [sum_powerset_apply_card (fun m => (if m ≤ 15 then triceD (m + 2) (15 - m) else 0) * triceD (26 - m) 15),
    pts_card]
  rfl

end Bglib
