import Verif.Spec.Course
import Verif.Lemmas.Moves
import Verif.Props.Moves
import Verif.Props.Actions
/-
Helper lemmas for C89: what no event of a game changes.
-/
namespace Bglib
open Spec

theorem cnt_le_total (r : List Int) (h : ∀ x ∈ r, 0 ≤ x) (i : Nat) : cnt r i ≤ total r ∧ 0 ≤ total r := by
  induction r generalizing i with
  | nil => simp [cnt, total]
  | cons x xs ih =>
    have hx := h x (by simp)
    have := fun i => ih (fun y hy => h y (by simp [hy])) i
    have h0 := (this 0).2
    simp only [total, List.foldr_cons] at this h0 ⊢
    cases i with
    | zero => simp only [cnt, List.getD_cons_zero]; omega
    | succ i =>
      have := (this i).1
      simp only [cnt, List.getD_cons_succ] at this ⊢
      omega

theorem row_cnt_le {r : List Int} (h : Row r) (i : Nat) : cnt r i ≤ total r := by
  refine (cnt_le_total r ?_ i).1
  intro x hx
  obtain ⟨k, hk, rfl⟩ := List.mem_iff_getElem.1 hx
  have := h.2 k
  simpa [cnt, List.getD_eq_getElem?_getD, hk] using this

/-- What all boards of a running game have in common with the first. -/
structure Same (first b : Board) : Prop where
  table : Table b
  cube : b.cube = first.cube
  length : b.matchLength = first.matchLength
  crawford : b.crawford = first.crawford
  state : b.gameState = first.gameState
  score : b.score = first.score ∨ b.score = (first.score.2, first.score.1)

theorem table_valid {b : Board} (h : Table b) : Valid b := by
  refine ⟨h.turn, ?_, ?_⟩
  · unfold mine; split
    · exact h.row1
    · exact h.row2
  · unfold theirs; split
    · exact h.row2
    · exact h.row1

theorem table_apart {b : Board} (h : Table b) : ∀ i < 24, cnt (mine b) i = 0 ∨ cnt (theirs b) (23 - i) = 0 := by
  intro i hi
  unfold mine theirs
  split
  · exact h.apart i hi
  · have := h.apart (23 - i) (by omega)
    rw [show 23 - (23 - i) = i by omega] at this
    exact this.symm

theorem step_apart {b b' : Board} {pm : PartialMove} (h : Table b) (hs : StepTo b pm b') :
    ∀ i < 24, cnt (mine b') i = 0 ∨ cnt (theirs b') (23 - i) = 0 := by
  intro i hi
  have ha := table_apart h i hi
  have hv := table_valid h
  have h1 := hs.mover i (by omega)
  have h2 := hs.other (23 - i) (by omega)
  have n2 := hv.theirs_row.2 (23 - i)
  have n1 := hv.mine_row.2 i
  unfold moverAfter at h1
  unfold otherAfter at h2
  rcases hs.legal with hl | ⟨hd, hh, hl⟩
  · obtain ⟨l1, l2, l3, l4, l5, l6, l7, l8, l9⟩ := hl
    by_cases e : (i : Int) = pm.dest
    · right
      have e2 : (23 - pm.dest).toNat = 23 - i := by omega
      rw [e2] at l8 l9
      rw [h2]
      by_cases hhit : pm.isHitting = true
      · rw [if_pos ⟨hhit, by omega⟩, if_neg (by omega), l9.1 hhit]; omega
      · have : cnt (theirs b) (23 - i) ≠ 1 := fun c => hhit (l9.2 c)
        rw [if_neg (fun c => hhit c.1), if_neg (fun c => hhit c.1)]; omega
    · by_cases e3 : (i : Int) = pm.src
      · have e4 : pm.src.toNat = i := by omega
        rw [e4] at l6
        right
        rw [h2, if_neg (by omega), if_neg (by omega)]; omega
      · rw [h1, h2, if_neg e3, if_neg e, if_neg (by omega), if_neg (by omega)]; omega
  · obtain ⟨l1, l2, l3, l4, l5, l6, _⟩ := hl
    rw [hh] at h2
    simp only [Bool.false_eq_true, false_and, if_false] at h2
    by_cases e3 : (i : Int) = pm.src
    · have e4 : pm.src.toNat = i := by omega
      rw [e4] at l5
      right; omega
    · rw [if_neg e3, if_neg (by omega)] at h1; omega

theorem position_of {b : Board} (ht : b.onAction = 0 ∨ b.onAction = 1) :
    (b.onAction = 0 ∧ mine b = b.position.1 ∧ theirs b = b.position.2) ∨
    (b.onAction = 1 ∧ mine b = b.position.2 ∧ theirs b = b.position.1) := by
  unfold mine theirs
  rcases ht with h | h <;> simp [h]

theorem step_table {b b' : Board} {pm : PartialMove} (h : Table b)
    (hl : LegalStep (mine b) (theirs b) pm.die pm.src pm.dest pm.isHitting) (hm : b.makePartialMove pm = .ok b') :
    Table b' ∧ b' = { b with position := b'.position } := by
  obtain ⟨c, hc, hs, hv, t1, t2⟩ := step_exists (table_valid h) hl
  obtain rfl := Except.ok.inj (hm.symm.trans hc)
  have hf := hs.frame
  have ha := step_apart h hs
  refine ⟨?_, hf⟩
  have eo : b'.onAction = b.onAction := by rw [hf]
  have tot : total (mine b') ≤ 15 ∧ total (theirs b') ≤ 15 := by
    have b1 : total (mine b) ≤ 15 := by unfold mine; split; exact h.fifteen1; exact h.fifteen2
    have b2 : total (theirs b) ≤ 15 := by unfold theirs; split; exact h.fifteen2; exact h.fifteen1
    rw [t1, t2]; split <;> omega
  have ht' : b'.onAction = 0 ∨ b'.onAction = 1 := eo ▸ h.turn
  have rest : (b'.cubeOwner = b.cubeOwner) ∧ b'.onInnerAction = b.onInnerAction ∧ b'.rolled = b.rolled ∧
      b'.resignOffer = b.resignOffer := by rw [hf]; exact ⟨rfl, rfl, rfl, rfl⟩
  obtain ⟨r1, r2, r3, r4⟩ := rest
  rcases position_of ht' with ⟨_, e1, e2⟩ | ⟨_, e1, e2⟩
  · exact ⟨e1 ▸ hv.mine_row, e2 ▸ hv.theirs_row, e1 ▸ tot.1, e2 ▸ tot.2, by rw [← e1, ← e2]; exact ha,
      r1 ▸ h.owner, ht', r2 ▸ h.inner, by rw [r3]; exact h.die1, by rw [r3]; exact h.die2, by rw [r4]; exact h.resign⟩
  · refine ⟨e2 ▸ hv.theirs_row, e1 ▸ hv.mine_row, e2 ▸ tot.2, e1 ▸ tot.1, ?_,
      r1 ▸ h.owner, ht', r2 ▸ h.inner, by rw [r3]; exact h.die1, by rw [r3]; exact h.die2, by rw [r4]; exact h.resign⟩
    intro i hi
    have := ha (23 - i) (by omega)
    rw [show 23 - (23 - i) = i by omega, e1, e2] at this
    exact this.symm

theorem back_eq {a b b' : Board} {pm : PartialMove} (ha : Table a) (hs : StepTo a pm b)
    (hm : b.makePartialMove ⟨pm.die, pm.dest, pm.src, pm.isHitting⟩ = .ok b') : b' = a := by
  obtain ⟨c, hc, hs', _⟩ := step_exists (table_valid ha) hs.legal
  obtain rfl := step_unique hs hs'
  obtain ⟨⟨i1, i2, i3, i4, i5⟩, _, hlt, _⟩ := LegalStep.inBoard hs.legal
  obtain ⟨d, hd, hd'⟩ := C13_undo a pm.die pm.src pm.dest pm.isHitting ha.turn ha.row1.1 ha.row2.1
    (by omega) hlt (by omega)
  obtain rfl := Except.ok.inj (hc.symm.trans hd)
  exact Except.ok.inj (hm.symm.trans hd')

theorem table_turns {b : Board} (h : Table b) : TurnsOk b := ⟨h.turn, h.inner⟩

theorem flip_same {b : Board} (h : Table b) :
    ∃ o i a, (o = 0 ∨ o = 1 ∨ o = 3) ∧ (i = 0 ∨ i = 1) ∧ (a = 0 ∨ a = 1) ∧
      b.flip.st = { b with
        cubeOwner := o, onInnerAction := i, onAction := a
        score := (b.score.2, b.score.1), position := (b.position.2, b.position.1) } := by
  unfold Board.flip
  simp only [YOU, HIM, CENTER]
  rcases h.owner with e | e | e <;> rcases h.turn with e1 | e1 <;> rcases h.inner with e2 | e2 <;>
    simp only [e, e1, e2] <;> exact ⟨_, _, _, by decide, by decide, by decide, rfl⟩

theorem happens_same {first b b' : Board} (h : Same first b) (hs : Happens b b') : Same first b' := by
  obtain ⟨ht, hc, hl, hf, hg, hsc⟩ := h
  cases hs with
  | roll _ who d1 d2 _ h1 h2 =>
    exact ⟨⟨ht.1, ht.2, ht.3, ht.4, ht.5, ht.6, ht.7, ht.8, by simp only; omega, by simp only; omega, ht.11⟩,
      hc, hl, hf, hg, hsc⟩
  | move _ _ pm hL hm =>
    obtain ⟨t, e⟩ := step_table ht hL hm
    refine ⟨t, ?_, ?_, ?_, ?_, ?_⟩ <;> rw [e] <;> assumption
  | back a _ _ pm ha hs hm =>
    obtain rfl := back_eq ha hs hm
    have e := hs.frame
    rw [e] at hc hl hf hg hsc
    exact ⟨ha, hc, hl, hf, hg, hsc⟩
  | act _ e he hx =>
    have hT := table_turns ht
    have t1 := ht.turn
    have t2 := ht.inner
    cases e with
    | double w =>
      have hD := C50_double b w hT hx
      have hw : w = 0 ∨ w = 1 := hD.1 ▸ t1
      show Same first (b.double w).st
      rw [hD.2.2.2.2]
      exact ⟨⟨ht.1, ht.2, ht.3, ht.4, ht.5, ht.6, ht.7, by simp only [after, other]; omega, ht.9, ht.10, ht.11⟩,
        hc, hl, hf, hg, hsc⟩
    | flip =>
      obtain ⟨o, i, a, ho, hi, ha, e⟩ := flip_same ht
      show Same first b.flip.st
      rw [e]
      refine ⟨⟨ht.2, ht.1, ht.4, ht.3, ?_, ho, ha, hi, ht.9, ht.10, ht.11⟩, hc, hl, hf, hg, ?_⟩
      · intro k hk
        have := ht.apart (23 - k) (by omega)
        rw [show 23 - (23 - k) = k by omega] at this
        exact this.symm
      · rcases hsc with e | e
        · right; simp only [e]
        · left; simp only [e]
    | set a => exact he.elim
    | setExtra a => exact he.elim
    | move a => exact he.elim
    | drop w => exact he.elim
    | acceptResign w => exact he.elim
    | take w =>
      have hA := C50_action b (.take w) hT trivial
      by_cases ho : inOrder b (.take w)
      · rw [hA.1 ho]
        exact ⟨⟨ht.1, ht.2, ht.3, ht.4, ht.5, ht.6, ht.7, ht.7, ht.9, ht.10, ht.11⟩, hc, hl, hf, hg, hsc⟩
      · exact absurd hx (hA.2 ho).2
    | offerResign w k =>
      have hA := C50_action b (.offerResign w k) hT trivial
      by_cases ho : inOrder b (.offerResign w k)
      · rw [hA.1 ho]
        obtain ⟨o1, o2, o3⟩ := ho
        exact ⟨⟨ht.1, ht.2, ht.3, ht.4, ht.5, ht.6, ht.7, by simp only [after, other]; omega, ht.9, ht.10,
          by simp only [after]; omega⟩, hc, hl, hf, hg, hsc⟩
      · exact absurd hx (hA.2 ho).2
    | rejectResign w =>
      have hA := C50_action b (.rejectResign w) hT trivial
      by_cases ho : inOrder b (.rejectResign w)
      · rw [hA.1 ho]
        simp only [inOrder] at ho
        have hw : w = 0 ∨ w = 1 := by omega
        exact ⟨⟨ht.1, ht.2, ht.3, ht.4, ht.5, ht.6, ht.7, by simp only [after, other]; omega, ht.9, ht.10,
          by simp only [after]; omega⟩, hc, hl, hf, hg, hsc⟩
      · exact absurd hx (hA.2 ho).2
    | pickupDice =>
      have hA := C50_action b .pickupDice hT trivial
      by_cases ho : inOrder b .pickupDice
      · rw [hA.1 ho]
        exact ⟨⟨ht.1, ht.2, ht.3, ht.4, ht.5, ht.6, by simp only [after, other]; omega,
          by simp only [after, other]; omega, by simp [after], by simp [after], ht.11⟩, hc, hl, hf, hg, hsc⟩
      · exact absurd hx (hA.2 ho).2

theorem course_same {first b : Board} (h : Table first) (hc : Course first b) : Same first b := by
  induction hc with
  | first => exact ⟨h, rfl, rfl, rfl, rfl, .inl rfl⟩
  | next b b' _ hs ih => exact happens_same ih hs

/-- The last board: the game is over, somebody got points, and the rest is as before. -/
theorem ends_same {b b' : Board} (h : Table b) (he : Ends b b') :
    ∃ s g p q, b' = { b with gameState := g, score := s } ∧ (g = 3 ∨ g = 4) ∧ s = (b.score.1 + p, b.score.2 + q) ∧
      0 ≤ p ∧ 0 ≤ q ∧ p ≤ 3 * 2 ^ b.cube ∧ q ≤ 3 * 2 ^ b.cube := by
  obtain ⟨who, he⟩ := he
  have t2 := h.inner
  have hr := h.resign
  have hpos : (0 : Int) < 2 ^ b.cube := Int.pow_pos (by omega)
  rcases he with he | he
  · have hA := C50_action b (.drop who) (table_turns h) trivial
    by_cases ho : inOrder b (.drop who)
    · have e := (hA.1 ho).symm.trans he
      have e := congrArg Step.st e
      simp only [after] at e
      have hw : who = 0 ∨ who = 1 := by simp only [inOrder] at ho; omega
      rw [← e]
      rcases hw with rfl | rfl
      · exact ⟨_, _, 0, 2 ^ b.cube, rfl, .inr rfl, by simp, by omega, by omega, by omega, by omega⟩
      · exact ⟨_, _, 2 ^ b.cube, 0, rfl, .inr rfl, by simp, by omega, by omega, by omega, by omega⟩
    · exact absurd (by rw [show (Edit.drop who).run b = b.drop who from rfl, he]) (hA.2 ho).2
  · have hA := C50_action b (.acceptResign who) (table_turns h) trivial
    by_cases ho : inOrder b (.acceptResign who)
    · have e := (hA.1 ho).symm.trans he
      have e := congrArg Step.st e
      simp only [after] at e
      have hw : who = 0 ∨ who = 1 := by simp only [inOrder] at ho; omega
      have h1 : b.resignOffer * 2 ^ b.cube ≤ 3 * 2 ^ b.cube := Int.mul_le_mul_of_nonneg_right hr.2 (by omega)
      have h2 : 0 ≤ b.resignOffer * 2 ^ b.cube := Int.mul_nonneg hr.1 (by omega)
      rw [← e]
      rcases hw with rfl | rfl
      · exact ⟨_, _, b.resignOffer * 2 ^ b.cube, 0, rfl, .inl rfl, by simp, by omega, by omega, by omega, by omega⟩
      · exact ⟨_, _, 0, b.resignOffer * 2 ^ b.cube, rfl, .inl rfl, by simp, by omega, by omega, by omega, by omega⟩
    · exact absurd (by rw [show (Edit.acceptResign who).run b = b.acceptResign who from rfl, he]) (hA.2 ho).2

end Bglib
