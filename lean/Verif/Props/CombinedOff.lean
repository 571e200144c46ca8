import Verif.Lemmas.MultiOff
import Verif.Props.Combined
/-
C47, exactly: which combined moves with one chequer are found.
-/
namespace Bglib
open Spec Factory

private theorem leads_dest {b b' : Board} {pms : List PartialMove} (hp : PlayTo b pms b') :
    ∀ {src dest : Int}, pms ≠ [] → Leads pms src dest → -1 ≤ dest := by
  induction hp with
  | nil => intro _ _ h; exact absurd rfl h
  | @cons b b1 b2 pm pms hs _ ih =>
    intro src dest _ hl
    by_cases h : pms = []
    · subst h
      have h1 : pm.dest = dest := hl.2
      rcases hs.legal with h2 | h2
      · have := h2.2.2.1; omega
      · have := h2.1; omega
    · exact ih h hl.2

/-- **C47**, exactly: with the whole roll to play, a destination that one chequer can reach by legal
movements with different dice of the roll is found, unless it is off the board, the dice differ, and the
larger die played first leaves a chequer behind that the smaller die would have to bear off before. -/
theorem C47_exact (b b' : Board) (pms : List PartialMove) (src dest : Int) (hv : Valid b)
    (h1 : 1 ≤ b.rolled.1 ∧ b.rolled.1 ≤ 6) (h2 : 1 ≤ b.rolled.2 ∧ b.rolled.2 ≤ 6)
    (hne : pms ≠ []) (hp : PlayTo b pms b') (hl : Leads pms src dest)
    (hu : UsesDice pms (diceOf b.rolled)) :
    (∃ r, (multiplePms b (Avail.ofRoll b.rolled) src dest).res = .ok (some r)) ↔
      ¬ (dest = -1 ∧ b.rolled.1 ≠ b.rolled.2 ∧
        OffOverlooked (mine b) (theirs b) (max b.rolled.1 b.rolled.2) (min b.rolled.1 b.rolled.2) src) := by
  have hnum := fun d => num_ofRoll h1 h2 d
  have hu' : UsesDice pms (diceLeft (Avail.ofRoll b.rolled)) := by
    intro d; rw [count_diceLeft, hnum]; exact hu d
  constructor
  · rintro ⟨r, hr⟩ ⟨rfl, hdb, ho⟩
    have hn : ∀ d, (Avail.ofRoll b.rolled).num d =
        (if b.rolled.2 = d then 1 else 0) + if b.rolled.1 = d then 1 else 0 := by
      intro d; rw [hnum]; unfold diceOf; rw [if_neg hdb]; simp [List.count_cons]
    rw [multi_two_overlooked hv (by omega) (by rw [hn]; split <;> split <;> omega)
      (by rw [hn]; split <;> split <;> omega) (by intro e _ _; rw [hn]; split <;> split <;> omega) ho] at hr
    simp at hr
  · intro hno
    have hge := leads_dest hp hne hl
    by_cases h0 : 0 ≤ dest
    · exact C47_partial b b' pms src dest hv h1 h2 h0 hne hp hl hu
    · obtain rfl : dest = -1 := by omega
      by_cases hdb : b.rolled.1 = b.rolled.2
      · have hn : ∀ d, (Avail.ofRoll b.rolled).num d = if b.rolled.1 = d then 4 else 0 := by
          intro d; rw [hnum]; unfold diceOf; rw [if_pos hdb]; simp [List.count_cons]; split <;> rfl
        have hall : ∀ pm ∈ pms, pm.die = b.rolled.1 := by
          intro pm hm
          apply Classical.byContradiction; intro hc
          have h3 := hu' pm.die
          rw [count_diceLeft, hn, if_neg (Ne.symm hc)] at h3
          have : 0 < (pms.map (·.die)).count pm.die := List.count_pos_iff.2 (List.mem_map_of_mem hm)
          omega
        refine multiLoop_single (d := b.rolled.1) hp src _ [] _ hv (by omega) (by intro p hp; simp at hp) hne hl hall ?_ ?_
        · have h3 := hu' b.rolled.1
          rw [count_diceLeft] at h3
          have : (pms.map (·.die)).count b.rolled.1 = pms.length := by
            rw [List.count_eq_length.2]
            · simp
            · intro x hx
              simp only [List.mem_map] at hx
              obtain ⟨q, hq, rfl⟩ := hx
              exact (hall q hq).symm
          omega
        · intro e he; rw [hn, if_neg (Ne.symm he)]
      · have hn : ∀ d, (Avail.ofRoll b.rolled).num d =
            (if b.rolled.2 = d then 1 else 0) + if b.rolled.1 = d then 1 else 0 := by
          intro d; rw [hnum]; unfold diceOf; rw [if_neg hdb]; simp [List.count_cons]
        exact multi_two_off hv hp hne hl (D := max b.rolled.1 b.rolled.2) (d := min b.rolled.1 b.rolled.2)
          (by omega) (by rw [hn]; split <;> split <;> omega) (by rw [hn]; split <;> split <;> omega)
          (by intro e _ _; rw [hn]; split <;> split <;> omega) hu' (fun h => hno ⟨rfl, hdb, h⟩)

/-- C47_exact has instances of both kinds: with 4-3, the chequer on the six point is overlooked because of
the one on the three point; alone it is borne off. -/
example : OffOverlooked (mine exOff) (theirs exOff) 4 3 5 :=
  ⟨⟨false, by unfold LegalMove; decide⟩, by decide, 2, by decide, by decide, by decide⟩
example : (multiplePms { exOff with position := ([0,0,0,0,0,1,0,0,0,0,0,0,0,0,0,0,0,0,0,0,0,0,0,0,0], initialRow) }
    (Avail.ofRoll (4, 3)) 5 (-1)).res = .ok (some [⟨4, 5, 1, false⟩, ⟨3, 1, -1, false⟩]) := by decide

end Bglib
