import Verif.Lemmas.Moves
/-
C12 (chequers are conserved) and C13 (undo restores the board).
-/
namespace Bglib
open Spec

/-- Opening position, you have rolled 3-1. -/
def exBoard : Board := { gameState := ON_GOING, rolled := (3, 1) }
/-- The hitting example: his blot is on your 4-point (his 21-point). -/
def exHit : Board :=
  { exBoard with position := (initialRow, [0,0,0,0,0,5,0,3,0,0,0,0,5,0,0,0,0,0,0,0,1,0,0,1,0]) }

theorem exBoard_valid : Valid exBoard := by
  refine ⟨Or.inl rfl, ⟨rfl, ?_⟩, ⟨rfl, ?_⟩⟩ <;>
  · intro i
    by_cases h : i < 25
    · have : ∀ j < 25, 0 ≤ cnt initialRow j := by decide
      exact this i h
    · rw [show (_ : Int) = 0 from cnt_out rfl (by omega)]; omega

theorem exHit_valid : Valid exHit := by
  refine ⟨Or.inl rfl, exBoard_valid.mine_row, ⟨rfl, ?_⟩⟩
  intro i
  by_cases h : i < 25
  · have : ∀ j < 25, 0 ≤ cnt (theirs exHit) j := by decide
    exact this i h
  · rw [show (_ : Int) = 0 from cnt_out rfl (by omega)]; omega

/-- **C12**, one movement: on every valid board every legal movement is carried out without an
exception, changes exactly the counts the rules say, keeps all counts non-negative and all other
attributes, takes one chequer off the mover's row exactly when bearing off, and conserves the
opponent's chequers even when one is hit. -/
theorem C12_step (b : Board) (pm : PartialMove) (hv : Valid b)
    (hl : LegalStep (mine b) (theirs b) pm.die pm.src pm.dest pm.isHitting) :
    ∃ b', b.makePartialMove pm = .ok b' ∧ StepTo b pm b' ∧ Valid b' ∧
      total (mine b') = total (mine b) - (if pm.dest = -1 then 1 else 0) ∧
      total (theirs b') = total (theirs b) :=
  step_exists hv hl

example : Valid exHit ∧ LegalStep (mine exHit) (theirs exHit) 2 5 3 true :=
  ⟨exHit_valid, by left; unfold LegalMove; decide⟩

/-- **C12**, whole plays of any length: `make` carries out every legal play, ends on the board the rules
prescribe, and loses exactly the chequers borne off. -/
theorem C12_play (b b' : Board) (pms : List PartialMove) (hv : Valid b) (hp : PlayTo b pms b') :
    b.make pms = ⟨b', none⟩ ∧ Valid b' ∧
      total (mine b') = total (mine b) - offs pms ∧ total (theirs b') = total (theirs b) := by
  induction hp with
  | nil b => exact ⟨rfl, hv, by simp [offs], rfl⟩
  | @cons b b1 b2 pm pms hs _ ih =>
    obtain ⟨c, hc, hst, hcv, t1, t2⟩ := step_exists hv hs.legal
    obtain rfl := step_unique hs hst
    obtain ⟨m, v, u1, u2⟩ := ih hcv
    refine ⟨by simp only [Board.make, hc, m], v, ?_, by omega⟩
    rw [u1, t1]
    unfold offs
    by_cases e : pm.dest = -1 <;> simp [e] <;> omega

/-- The 3-1 opening play 8/5, 6/5 is such a play. -/
example : ∃ b', PlayTo exBoard [⟨3, 7, 4, false⟩, ⟨1, 5, 4, false⟩] b' ∧ offs [⟨3, 7, 4, false⟩] = 0 := by
  obtain ⟨b1, h1, s1, v1, _⟩ := step_exists (pm := ⟨3, 7, 4, false⟩) exBoard_valid
    (by left; unfold LegalMove; decide)
  have hb1 : b1 = { exBoard with
      position := ([0,0,0,0,1,5,0,2,0,0,0,0,5,0,0,0,0,0,0,0,0,0,0,2,0], initialRow) } := by
    have : exBoard.makePartialMove ⟨3, 7, 4, false⟩ = .ok { exBoard with
      position := ([0,0,0,0,1,5,0,2,0,0,0,0,5,0,0,0,0,0,0,0,0,0,0,2,0], initialRow) } := by decide
    rw [this] at h1; cases h1; rfl
  subst hb1
  obtain ⟨b2, _, s2, _⟩ := step_exists (pm := ⟨1, 5, 4, false⟩) v1
    (by left; unfold LegalMove; decide)
  exact ⟨b2, .cons s1 (.cons s2 (.nil _)), by decide⟩

/-- **C13**, one movement: playing any movement inside the board, hitting or not, and then the movement
with source and destination exchanged gives back the same board.  (No legality is needed.) -/
theorem C13_undo (b : Board) (die src dest : Int) (hit : Bool)
    (ht : b.onAction = 0 ∨ b.onAction = 1)
    (l1 : b.position.1.length = 25) (l2 : b.position.2.length = 25)
    (h1 : -1 ≤ dest) (h2 : dest < src) (h3 : src ≤ 24) :
    ∃ b', b.makePartialMove ⟨die, src, dest, hit⟩ = .ok b' ∧
      b'.makePartialMove ⟨die, dest, src, hit⟩ = .ok b := by
  have lm : (mine b).length = 25 := by unfold mine; split <;> assumption
  have lt : (theirs b).length = 25 := by unfold theirs; split <;> assumption
  refine ⟨_, makePartialMove_eq ht lm lt ⟨by simp; omega, by simp; omega, by simp; omega, by simp; omega, by simp; omega⟩, ?_⟩
  rw [makePartialMove_eq (by simpa [turn_setRows] using ht) (by simp [mine_setRows, lm])
    (by simp [theirs_setRows, lt]) ⟨by simp; omega, by simp; omega, by simp; omega, by simp; omega, by simp; omega⟩]
  congr 1
  rw [mine_setRows, theirs_setRows, setRows_setRows]
  conv => rhs; rw [← setRows_self b]
  have u1 : (⟨die, src, dest, hit⟩ : PartialMove).isUndo = false := by
    simp [PartialMove.isUndo]; omega
  have u2 : (⟨die, dest, src, hit⟩ : PartialMove).isUndo = true := by
    simp [PartialMove.isUndo]; omega
  congr 1
  · simp only []
    rw [addOn_cancel' _ dest (by omega), addOn_cancel' _ src (by omega)]
  · simp only [hitPoint, hitDelta, u1, u2]
    cases hit
    · simp [addOn_zero]
    · simp only [if_true, Bool.false_eq_true, if_false]
      rw [addOn_comm _ 24 (23 - dest), addOn_cancel' _ (23 - dest) (by omega), addOn_cancel' _ 24 (by omega)]

example : ∃ b', exHit.makePartialMove ⟨2, 5, 3, true⟩ = .ok b' ∧ b' ≠ exHit ∧
    b'.makePartialMove ⟨2, 3, 5, true⟩ = .ok exHit := by
  refine ⟨_, rfl, by decide, by decide⟩

/-- **C13**, whole plays: after any list of movements inside the board, undoing them — in whatever
order — gives back the board.  (`is_leagal_to_pickup_dice` undoes in playing order, a player usually in
reverse order.) -/
theorem C13_undo_play (b : Board) (pms undos : List PartialMove)
    (ht : b.onAction = 0 ∨ b.onAction = 1)
    (l1 : b.position.1.length = 25) (l2 : b.position.2.length = 25)
    (hp : ∀ pm ∈ pms, -1 ≤ pm.dest ∧ pm.dest < pm.src ∧ pm.src ≤ 24)
    (hu : undos.Perm (pms.map fun pm => ⟨pm.die, pm.dest, pm.src, pm.isHitting⟩)) :
    (b.make pms).err = none ∧ (b.make pms).st.make undos = ⟨b, none⟩ :=
  undo_play ht l1 l2 hp hu

example : exHit.make [⟨2, 5, 3, true⟩, ⟨1, 3, 2, false⟩] ≠ ⟨exHit, none⟩ ∧
    (exHit.make [⟨2, 5, 3, true⟩, ⟨1, 3, 2, false⟩]).st.make
      [⟨2, 3, 5, true⟩, ⟨1, 2, 3, false⟩] = ⟨exHit, none⟩ := by decide

end Bglib
