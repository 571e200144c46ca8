import Verif.Lemmas.MultiComplete
import Verif.Props.Pickup
/-
C47 (every combined move with one chequer is found), C48 (suggested take-backs).
-/
namespace Bglib
open Spec Factory

/-! ### C47 -/

/-- Full statement of C47: with the whole roll to play, a destination that one chequer can reach by
legal movements with different dice of the roll is found. -/
def C47_statement : Prop := ∀ (b b' : Board) (pms : List PartialMove) (src dest : Int), Valid b →
  1 ≤ b.rolled.1 ∧ b.rolled.1 ≤ 6 → 1 ≤ b.rolled.2 ∧ b.rolled.2 ≤ 6 →
  pms ≠ [] → PlayTo b pms b' → Leads pms src dest → UsesDice pms (diceOf b.rolled) →
  ∃ r, (multiplePms b (Avail.ofRoll b.rolled) src dest).res = .ok (some r)

/-- Two chequers left, on the six and three point; 4-3 rolled. -/
def exOff : Board :=
  { exBoard with position := ([0,0,1,0,0,1,0,0,0,0,0,0,0,0,0,0,0,0,0,0,0,0,0,0,0], initialRow),
                 rolled := (4, 3) }

/-- The same after 6/3. -/
def exOff2 : Board :=
  { exOff with position := ([0,0,2,0,0,0,0,0,0,0,0,0,0,0,0,0,0,0,0,0,0,0,0,0,0], initialRow) }

theorem exOff_valid : Valid exOff := valid_of_rows (Or.inl rfl) rfl rfl (by decide) (by decide)

/-- **C47 is false** of the code: the chequer on the six point can be borne off by 6/3/off (3 first,
then the 4 from the highest point), but the search tries only 6/2 first and gives up. -/
theorem C47_false : ¬ C47_statement := by
  intro h
  have l1 : LegalStep (mine exOff) (theirs exOff) 3 5 2 false := Or.inl (by unfold LegalMove; decide)
  obtain ⟨b1, hb1, s1, v1, _⟩ := step_exists (pm := ⟨3, 5, 2, false⟩) exOff_valid l1
  have hb1' : exOff.makePartialMove ⟨3, 5, 2, false⟩ = .ok exOff2 := by decide
  rw [hb1'] at hb1
  simp only [Except.ok.injEq] at hb1
  subst hb1
  have l2 : LegalStep (mine exOff2) (theirs exOff2) 4 2 (-1) false :=
    Or.inr ⟨rfl, rfl, by decide, by decide, by decide, by decide, by decide,
      fun i hi => by
        by_cases h25 : i < 25
        · have : ∀ j < 25, 6 ≤ j → cnt (mine exOff2) j = 0 := by decide
          exact this i h25 hi
        · exact cnt_out rfl (by omega),
      Or.inr ⟨by decide, fun i hi => by
        by_cases h25 : i < 25
        · have : ∀ j < 25, (2 : Int) < (j : Nat) → cnt (mine exOff2) j = 0 := by decide
          exact this i h25 hi
        · exact cnt_out rfl (by omega)⟩⟩
  obtain ⟨b2, _, s2, _, _⟩ := step_exists (pm := ⟨4, 2, -1, false⟩) v1 l2
  obtain ⟨r, hr⟩ := h exOff b2 [⟨3, 5, 2, false⟩, ⟨4, 2, -1, false⟩] 5 (-1) exOff_valid (by decide) (by decide)
    (by simp) (.cons s1 (.cons s2 (.nil _))) ⟨rfl, rfl, rfl⟩ (by
      intro d; simp only [List.map_cons, List.map_nil, exOff, diceOf]
      simp [List.count_cons]; omega)
  have : (multiplePms exOff (Avail.ofRoll (4, 3)) 5 (-1)).res = .ok none := by decide
  rw [show exOff.rolled = (4, 3) from rfl, this] at hr
  simp at hr

/-- **C47**, the part that holds: every destination on the board. -/
theorem C47_partial (b b' : Board) (pms : List PartialMove) (src dest : Int) (hv : Valid b)
    (h1 : 1 ≤ b.rolled.1 ∧ b.rolled.1 ≤ 6) (h2 : 1 ≤ b.rolled.2 ∧ b.rolled.2 ≤ 6) (h0 : 0 ≤ dest)
    (hne : pms ≠ []) (hp : PlayTo b pms b') (hl : Leads pms src dest)
    (hu : UsesDice pms (diceOf b.rolled)) :
    ∃ r, (multiplePms b (Avail.ofRoll b.rolled) src dest).res = .ok (some r) := by
  have hnum := fun d => num_ofRoll h1 h2 d
  have hu' : UsesDice pms (diceLeft (Avail.ofRoll b.rolled)) := by
    intro d; rw [count_diceLeft, hnum]; exact hu d
  by_cases hdb : b.rolled.1 = b.rolled.2
  · have hn : ∀ d, (Avail.ofRoll b.rolled).num d = if b.rolled.1 = d then 4 else 0 := by
      intro d; rw [hnum]; unfold diceOf; rw [if_pos hdb]; simp [List.count_cons]; split <;> rfl
    have hall : ∀ pm ∈ pms, pm.die = b.rolled.1 := by
      intro pm hm
      apply Classical.byContradiction; intro hc
      have h3 := hu' pm.die
      rw [count_diceLeft, hn, if_neg (Ne.symm hc)] at h3
      have : 0 < (pms.map (·.die)).count pm.die := List.count_pos_iff.2 (List.mem_map_of_mem hm)
      omega
    refine multiLoop_single (d := b.rolled.1) hp src _ [] _ hv (by omega) (by intro p hp; simp at hp) hne hl hall ?_ ?_
    · have h3 := hu' b.rolled.1
      rw [count_diceLeft] at h3
      have : (pms.map (·.die)).count b.rolled.1 = pms.length := by
        rw [List.count_eq_length.2]
        · simp
        · intro x hx
          simp only [List.mem_map] at hx
          obtain ⟨q, hq, rfl⟩ := hx
          exact (hall q hq).symm
      omega
    · intro e he; rw [hn, if_neg (Ne.symm he)]
  · have hn : ∀ d, (Avail.ofRoll b.rolled).num d =
        (if b.rolled.2 = d then 1 else 0) + if b.rolled.1 = d then 1 else 0 := by
      intro d; rw [hnum]; unfold diceOf; rw [if_neg hdb]; simp [List.count_cons]
    rcases Int.lt_or_gt_of_ne hdb with h | h
    · exact multi_two (D := b.rolled.2) (d := b.rolled.1) hv hp hne hl h0 h (by rw [hn]; simp; omega)
        (by rw [hn]; simp; omega) (by intro e _ _; rw [hn]; simp; omega) hu'
    · exact multi_two (D := b.rolled.1) (d := b.rolled.2) hv hp hne hl h0 h (by rw [hn]; simp; omega)
        (by rw [hn]; simp; omega) (by intro e _ _; rw [hn]; simp; omega) hu'

example : (multiplePms exBoard (Avail.ofRoll (3, 1)) 7 3).res =
    .ok (some [⟨3, 7, 4, false⟩, ⟨1, 4, 3, false⟩]) := by decide

/-! ### C48 -/

/-- Full statement of C48: a take-back that is suggested leads the chequer back by inverses of recorded
movements, and asking does not change the board. -/
def C48_statement : Prop := ∀ (f : Factory) (src dest : Int) (r : List PartialMove), Valid f.board →
  (∀ pm ∈ f.move, pm.dest < pm.src) → (f.multipleUndoes src dest).res = .ok (some r) →
  r ≠ [] ∧ Leads r src dest ∧ (∀ u ∈ r, u.inverse ∈ f.move) ∧ (f.multipleUndoes src dest).st = f.board

/-- The factory after 8/5, 5/4 with 3-1. -/
def exUndo : Factory := ((Factory.new exBoard).addAll [⟨3, 7, 4, false⟩, ⟨1, 4, 3, false⟩]).st

theorem exUndo_valid : Valid exUndo.board :=
  valid_of_rows (Or.inl rfl) rfl rfl (by decide) (by decide)

/-- **C48 is false** of the code: asking how to take back both movements at once really takes the
second one back on the board. -/
theorem C48_false : ¬ C48_statement := by
  intro h
  have := (h exUndo 3 7 [⟨1, 3, 4, false⟩, ⟨3, 4, 7, false⟩] exUndo_valid (by decide) (by decide)).2.2.2
  exact absurd this (by decide)

theorem moveAppend_backward {ms : List PartialMove} {pm : PartialMove}
    (h : ∀ p ∈ ms, p.src < p.dest) (hp : pm.src < pm.dest) : moveAppend ms pm = ms ++ [pm] := by
  have key : ∀ l : List PartialMove, (∀ p ∈ l, p.src < p.dest) → removeInvertible pm l = none := by
    intro l hl
    induction l with
    | nil => rfl
    | cons q l ih =>
      unfold removeInvertible
      have hq := hl q (by simp)
      rw [if_neg, ih (fun p hp => hl p (by simp [hp]))]
      · rfl
      · simp only [PartialMove.areInvertible, Bool.and_eq_true, decide_eq_true_eq]
        omega
  unfold moveAppend
  rw [key _ (by intro p hp; exact h p (by simpa using hp))]

private theorem undoLoop_spec (move : List PartialMove) (dest : Int)
    (hm : ∀ pm ∈ move, pm.dest < pm.src) :
    ∀ (fuel : Nat) (b : Board) (src : Int) (mv r : List PartialMove), (∀ p ∈ mv, p.src < p.dest) →
      (undoLoop move dest fuel b src mv).res = .ok (some r) →
      ∃ c, r = mv ++ c ∧ c ≠ [] ∧ Leads c src dest ∧ (∀ u ∈ c, u.inverse ∈ move) ∧
        (c.length = 1 → (undoLoop move dest fuel b src mv).st = b) := by
  intro fuel
  induction fuel with
  | zero => intro b src mv r _ h; simp [undoLoop] at h
  | succ fuel ih =>
    intro b src mv r hmv h
    unfold undoLoop at h ⊢
    by_cases hlt : src < dest
    · simp only [hlt, not_true, if_false] at h ⊢
      cases hf : moveFind move src with
      | none => rw [hf] at h; simp at h
      | some pm =>
        have hmem : pm ∈ move := by
          have := List.mem_of_find?_eq_some hf; simpa using this
        have hdst : pm.dest = src := by
          have := List.find?_some hf; simpa using this
        have hfw := hm pm hmem
        have hb : pm.inverse.src < pm.inverse.dest := by simpa [PartialMove.inverse] using hfw
        have hsrc : pm.inverse.src = src := by simpa [PartialMove.inverse] using hdst
        have hinv : pm.inverse.inverse ∈ move := by
          have : pm.inverse.inverse = pm := by cases pm; rfl
          rwa [this]
        simp only [hf, moveAppend_backward hmv hb] at h ⊢
        by_cases he : pm.inverse.dest = dest
        · simp only [he, if_true, Except.ok.injEq, Option.some.injEq] at h ⊢
          refine ⟨[pm.inverse], h.symm, by simp, ⟨hsrc, he⟩, ?_, fun _ => trivial⟩
          intro u hu; simp at hu; subst hu; exact hinv
        · simp only [he, if_false] at h ⊢
          by_cases hl : pm.inverse.dest < dest
          · simp only [hl, if_true] at h ⊢
            cases hb1 : b.makePartialMove pm.inverse with
            | error e => rw [hb1] at h; simp at h
            | ok b1 =>
              simp only [hb1] at h ⊢
              obtain ⟨c, hc, hn, hle, hall, _⟩ := ih b1 _ _ r (by
                intro p hp
                simp only [List.mem_append, List.mem_singleton] at hp
                rcases hp with hp | rfl
                · exact hmv p hp
                · exact hb) h
              refine ⟨pm.inverse :: c, by simp [hc], by simp, ⟨hsrc, hle⟩, ?_, ?_⟩
              · intro u hu
                simp only [List.mem_cons] at hu
                rcases hu with rfl | hu
                · exact hinv
                · exact hall u hu
              · intro h1
                simp only [List.length_cons] at h1
                exact absurd (List.length_eq_zero_iff.1 (by omega)) hn
          · simp only [hl, if_false] at h
            simp at h
    · simp [hlt] at h

/-- **C48**, the part that holds: the chain is right, and a take-back of one movement leaves the board
alone. -/
theorem C48_partial (f : Factory) (src dest : Int) (r : List PartialMove)
    (hm : ∀ pm ∈ f.move, pm.dest < pm.src) (h : (f.multipleUndoes src dest).res = .ok (some r)) :
    r ≠ [] ∧ Leads r src dest ∧ (∀ u ∈ r, u.inverse ∈ f.move) ∧
    (r.length = 1 → (f.multipleUndoes src dest).st = f.board) := by
  obtain ⟨c, hc, hn, hl, ha, hs⟩ := undoLoop_spec f.move dest hm _ f.board src [] r (by simp) h
  simp only [List.nil_append] at hc
  subst hc
  exact ⟨hn, hl, ha, hs⟩

example : (exUndo.multipleUndoes 3 7).res = .ok (some [⟨1, 3, 4, false⟩, ⟨3, 4, 7, false⟩]) := by decide

/-! ### C49 -/

/-- Full statement of C49: a factory made for the dice that are left has exactly these dice. -/
def C49_statement : Prop := ∀ (b : Board) (move : List PartialMove) (a : Avail),
  diceLeft (Factory.new b move (some a)).avail = diceLeft a

/-- **C49 is false** of the code: dice that are all used up are replaced by the whole roll. -/
theorem C49_false : ¬ C49_statement := fun h => absurd (h exBoard [] {}) (by decide)

/-- **C49**, the part that holds: as long as a die is left. -/
theorem C49_partial (b : Board) (move : List PartialMove) (a : Avail) (h : diceLeft a ≠ []) :
    diceLeft (Factory.new b move (some a)).avail = diceLeft a := by
  have : a.len ≠ 0 := by
    intro h0
    have := len_diceLeft a
    exact h (List.length_eq_zero_iff.1 (by omega))
  simp [Factory.new, this]

example : diceLeft (Factory.new exBoard [] (some { d1 := 1 })).avail = [1] := by decide

end Bglib
