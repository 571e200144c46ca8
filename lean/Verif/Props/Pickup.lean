import Verif.Props.MoveFactory
import Verif.Lemmas.PickupCases
/-
C19: when the dice may be picked up.
-/
namespace Bglib
open Spec Factory

/-- Full statement of C19: after any legal part of a turn, the answer is yes exactly when no legal play
of the roll is longer, and asking leaves the board alone. -/
def C19_statement : Prop := ∀ (b b1 : Board) (pms : List PartialMove) (f : Factory), Valid b →
  (1 ≤ b.rolled.1 ∧ b.rolled.1 ≤ 6) → (1 ≤ b.rolled.2 ∧ b.rolled.2 ≤ 6) →
  PlayTo b pms b1 → UsesDice pms (diceOf b.rolled) → (Factory.new b).addAll pms = ⟨f, none⟩ →
  f.isLegalToPickupDice.st = b1 ∧
  (f.isLegalToPickupDice.res = .ok true ↔ TurnOver b pms.length)

/-- **C19**, the part that holds.  Provided no chequer waits on the bar that could enter, and provided
that with two different dice not exactly one of them has been played without the other being playable,
the answer is yes exactly when no legal play of the roll is longer, and the board is left alone. -/
theorem C19_partial (b b1 : Board) (pms : List PartialMove) (f : Factory) (hv : Valid b)
    (h1 : 1 ≤ b.rolled.1 ∧ b.rolled.1 ≤ 6) (h2 : 1 ≤ b.rolled.2 ∧ b.rolled.2 ≤ 6)
    (hp : PlayTo b pms b1) (hu : UsesDice pms (diceOf b.rolled))
    (hf : (Factory.new b).addAll pms = ⟨f, none⟩)
    (hbar : cnt (mine b1) 24 = 0 ∨ ¬ CanMove b1 (diceLeft f.avail))
    (hcase : b.rolled.1 = b.rolled.2 ∨ pms.length ≠ 1 ∨ CanMove b1 (diceLeft f.avail)) :
    f.isLegalToPickupDice.st = b1 ∧
    (f.isLegalToPickupDice.res = .ok true ∨ f.isLegalToPickupDice.res = .ok false) ∧
    (f.isLegalToPickupDice.res = .ok true ↔ TurnOver b pms.length) := by
  obtain ⟨a', e, hex, hn⟩ := addAll_play hp hv (Factory.new b) rfl (by intro p hp; simp [Factory.new] at hp)
    (by intro d; have := hu d; simpa [Factory.new, num_ofRoll h1 h2] using this)
  rw [hf] at e
  simp only [Step.mk.injEq, and_true] at e
  have hfb : f.board = b1 := by rw [e]
  have hfm : f.move = pms := by rw [e]; simp [Factory.new]
  have hfa : f.avail = a' := by rw [e]
  have hext : f.avail.extra = 0 := by rw [hfa, hex]; exact ofRoll_extra h1 h2
  have hcnt : ∀ d, (diceLeft f.avail).count d + (pms.map (·.die)).count d = (diceOf b.rolled).count d := by
    intro d
    have := hn d
    simp only [Factory.new, num_ofRoll h1 h2] at this
    rw [count_diceLeft, hfa]; exact this
  have hperm : (diceLeft f.avail ++ pms.map (·.die)).Perm (diceOf b.rolled) := by
    rw [List.perm_iff_count]; intro d; rw [List.count_append]; exact hcnt d
  have hlenp := hperm.length_eq
  simp only [List.length_append, List.length_map] at hlenp
  have hv1 : Valid f.board := by rw [hfb]; exact hp.valid hv
  have hroll : f.board.rolled = b.rolled := by rw [hfb]; exact frame_play hp
  have hr0 : f.board.rolled ≠ (0, 0) := by
    rw [hroll]; intro h; rw [h] at h1; simp at h1
  obtain ⟨c1, c2, c3, c4, _⟩ := pickup_cases hv1 hr0
  rw [hfb] at c1 c2 c3 c4
  have hll := len_diceLeft f.avail
  rw [hext] at hll
  by_cases hl : f.avail.len = 0
  · rw [c1 hl]
    refine ⟨rfl, Or.inl rfl, ?_⟩
    simp only [true_iff]
    rintro q ⟨_, hq⟩
    have := usesDice_length hq
    omega
  · have hne : diceLeft f.avail ≠ [] := by
      intro h; rw [h] at hll; simp at hll; exact hl hll
    by_cases hc : CanMove b1 (diceLeft f.avail)
    · have hb0 : cnt (mine b1) 24 = 0 := by
        rcases hbar with h | h
        · exact h
        · exact absurd hc h
      rw [c2 hl hb0 hc]
      refine ⟨rfl, Or.inr rfl, ?_⟩
      simp only [Except.ok.injEq, Bool.false_eq_true, false_iff]
      intro ht
      obtain ⟨q, hq, hql⟩ := canMove_longer hv hp hcnt hc
      have := ht q hq
      omega
    · have hnil : b.rolled.1 = b.rolled.2 ∨ pms = [] := by
        by_cases hdb : b.rolled.1 = b.rolled.2
        · exact Or.inl hdb
        · right
          have hn1 : pms.length ≠ 1 := by
            rcases hcase with h | h | h
            · exact absurd h hdb
            · exact h
            · exact absurd h hc
          have h2l : (diceOf b.rolled).length = 2 := by unfold diceOf; rw [if_neg hdb]; rfl
          have : (diceLeft f.avail).length ≠ 0 := by
            intro h; exact hne (List.eq_nil_of_length_eq_zero h)
          apply List.eq_nil_of_length_eq_zero
          omega
      have hto := turnOver_of_stuck hv hp hu hcnt hne hc hnil
      have key : f.isLegalToPickupDice = ⟨b1, .ok true⟩ := by
        by_cases hb : cnt (mine b1) 24 = 0
        · rw [c4 hl hb hc]
          split
          · rfl
          · rename_i hnd
            rw [← hfb, hroll] at hnd
            have hpn : pms = [] := by
              rcases hnil with h | h
              · exact absurd h hnd
              · exact h
            rw [pickupRewound_empty hv1 (by rw [hfm, hpn]) hl hext
              (by rw [hfb]; exact noPointStep_of hc), hfb]
        · exact c3 hl hb hc
      rw [key]
      exact ⟨rfl, Or.inl rfl, by simp [hto]⟩

/-- After 8/5 with 3-1 from the opening position the one is still playable. -/
example : ∃ b1 f, PlayTo exBoard [⟨3, 7, 4, false⟩] b1 ∧
    (Factory.new exBoard).addAll [⟨3, 7, 4, false⟩] = ⟨f, none⟩ ∧ cnt (mine b1) 24 = 0 ∧
    CanMove b1 (diceLeft f.avail) := by
  obtain ⟨b1, h1, s1, v1, _⟩ := step_exists (pm := ⟨3, 7, 4, false⟩) exBoard_valid
    (by left; unfold LegalMove; decide)
  have hb1 : b1 = { exBoard with
      position := ([0,0,0,0,1,5,0,2,0,0,0,0,5,0,0,0,0,0,0,0,0,0,0,2,0], initialRow) } := by
    have : exBoard.makePartialMove ⟨3, 7, 4, false⟩ = .ok { exBoard with
      position := ([0,0,0,0,1,5,0,2,0,0,0,0,5,0,0,0,0,0,0,0,0,0,0,2,0], initialRow) } := by decide
    rw [this] at h1; cases h1; rfl
  subst hb1
  exact ⟨_, _, .cons s1 (.nil _), rfl, by decide, 1, by decide, 5, 4, false,
    Or.inl (by unfold LegalMove; decide)⟩

/-- **C19 is false (1)**: at the start of a turn with a chequer on the bar the answer is always yes, on
every board and for every roll, also when the chequer can enter. -/
theorem C19_bar_always_yes (b : Board) (hv : Valid b) (h1 : 1 ≤ b.rolled.1 ∧ b.rolled.1 ≤ 6)
    (h2 : 1 ≤ b.rolled.2 ∧ b.rolled.2 ≤ 6) (hb : cnt (mine b) 24 ≠ 0) :
    (Factory.new b).isLegalToPickupDice = ⟨b, .ok true⟩ := by
  have hr0 : b.rolled ≠ (0, 0) := by intro h; rw [h] at h1; simp at h1
  obtain ⟨c1, _, c3, _, c5⟩ := pickup_cases (f := Factory.new b) hv hr0
  by_cases hl : (Factory.new b).avail.len = 0
  · exact c1 hl
  · by_cases hc : CanMove b (diceLeft (Factory.new b).avail)
    · rw [c5 hl hb hc]
      split
      · rfl
      · exact pickupRewound_empty hv rfl hl (ofRoll_extra h1 h2) (noPointStep_bar hb)
    · exact c3 hl hb hc

/-- Opening position with one back chequer on the bar, 3-3 rolled. -/
def exBar : Board :=
  { exBoard with position := ([0,0,0,0,0,5,0,3,0,0,0,0,5,0,0,0,0,0,0,0,0,0,0,1,1], initialRow),
                 rolled := (3, 3) }

theorem valid_of_rows {b : Board} (ht : b.onAction = 0 ∨ b.onAction = 1)
    (l1 : (mine b).length = 25) (l2 : (theirs b).length = 25)
    (h1 : ∀ i < 25, 0 ≤ cnt (mine b) i) (h2 : ∀ i < 25, 0 ≤ cnt (theirs b) i) : Valid b := by
  refine ⟨ht, ⟨l1, ?_⟩, ⟨l2, ?_⟩⟩
  · intro i
    by_cases h : i < 25
    · exact h1 i h
    · rw [cnt_out l1 (by omega)]; omega
  · intro i
    by_cases h : i < 25
    · exact h2 i h
    · rw [cnt_out l2 (by omega)]; omega

theorem exBar_valid : Valid exBar := valid_of_rows (Or.inl rfl) rfl rfl (by decide) (by decide)

theorem C19_false : ¬ C19_statement := by
  intro h
  have := (h exBar exBar [] (Factory.new exBar) exBar_valid (by decide) (by decide) (.nil _)
    (by intro d; simp) rfl).2
  rw [C19_bar_always_yes exBar exBar_valid (by decide) (by decide) (by decide)] at this
  have ht := this.1 rfl
  obtain ⟨b2, _, hs, _, _⟩ := step_exists (pm := ⟨3, 24, 21, false⟩) exBar_valid
    (by left; unfold LegalMove; decide)
  have := ht [⟨3, 24, 21, false⟩] ⟨⟨b2, .cons hs (.nil _)⟩, by
    intro d
    by_cases e : d = 3
    · subst e; decide
    · have e' : ¬ (3 : Int) = d := fun h => e h.symm
      simp [e']⟩
  simp at this

/-- One chequer on the 24 point, 6-1 rolled, both sixes blocked. -/
def exRewind : Board :=
  { exBoard with
    position := ([0,0,0,0,0,0,0,0,0,0,0,0,0,0,0,0,0,0,0,0,0,0,0,1,0],
                 [0,0,0,0,0,0,2,2,0,0,0,0,0,0,0,0,0,0,0,0,0,0,0,0,0]),
    rolled := (6, 1) }

/-- **C19 is false (2)**: asking after 24/23 takes that movement back on the board. -/
theorem C19_board_false : ∃ f, (Factory.new exRewind).addAll [⟨1, 23, 22, false⟩] = ⟨f, none⟩ ∧
    f.board ≠ exRewind ∧ f.isLegalToPickupDice.st = exRewind := by
  refine ⟨⟨{ exRewind with position :=
      ([0,0,0,0,0,0,0,0,0,0,0,0,0,0,0,0,0,0,0,0,0,0,1,0,0], exRewind.position.2) },
    [⟨1, 23, 22, false⟩], { d6 := 1 }⟩, by decide, by decide, by decide⟩

/-- Chequers on the 11 and 21 points, 6-1 rolled; the ones 5/4 and 21/20 and 15/14 are blocked. -/
def exTwo : Board :=
  { exBoard with
    position := ([0,0,0,0,0,0,0,0,0,0,1,0,0,0,0,0,0,0,0,0,1,0,0,0,0],
                 [0,0,0,0,2,0,0,0,0,0,2,0,0,0,0,0,0,0,0,0,2,0,0,0,0]),
    rolled := (6, 1) }

theorem exTwo_valid : Valid exTwo := valid_of_rows (Or.inl rfl) rfl rfl (by decide) (by decide)

/-- **C19 is false (3)**: after 11/5 with the six no one is left, and the answer is yes, although
11/10, 21/15 plays both dice: only plays of a single chequer are looked at. -/
theorem C19_two_chequers_false :
    (((Factory.new exTwo).addAll [⟨6, 10, 4, false⟩]).st.isLegalToPickupDice).res = .ok true ∧
    ∃ pms, Playable exTwo (diceOf exTwo.rolled) pms ∧ pms.length = 2 := by
  refine ⟨by decide, [⟨1, 10, 9, false⟩, ⟨6, 20, 14, false⟩], ⟨?_, ?_⟩, rfl⟩
  · obtain ⟨b1, h1, s1, v1, _⟩ := step_exists (pm := ⟨1, 10, 9, false⟩) exTwo_valid
      (by left; unfold LegalMove; decide)
    have hb1 : b1 = { exTwo with position :=
        ([0,0,0,0,0,0,0,0,0,1,0,0,0,0,0,0,0,0,0,0,1,0,0,0,0], exTwo.position.2) } := by
      have : exTwo.makePartialMove ⟨1, 10, 9, false⟩ = .ok { exTwo with position :=
        ([0,0,0,0,0,0,0,0,0,1,0,0,0,0,0,0,0,0,0,0,1,0,0,0,0], exTwo.position.2) } := by decide
      rw [this] at h1; cases h1; rfl
    subst hb1
    obtain ⟨b2, _, s2, _⟩ := step_exists (pm := ⟨6, 20, 14, false⟩) v1
      (by left; unfold LegalMove; decide)
    exact ⟨b2, .cons s1 (.cons s2 (.nil _))⟩
  · intro d
    by_cases e6 : (6 : Int) = d
    · subst e6; decide
    · by_cases e1 : (1 : Int) = d
      · subst e1; decide
      · simp [e6, e1]

end Bglib
