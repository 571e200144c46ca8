import Verif.Lemmas.Race
import Verif.Props.Suggested
/-
C105 (playing lowers the pip count by the dice) and C106 (a game is over when a player has borne off all chequers).
-/
namespace Bglib
open Spec

/-- **C105**, one movement: every legal movement is carried out; the mover's pip count becomes smaller by the pips the
chequer has gone, at least one, as many as the die shows, or fewer if a chequer is borne off with a larger die; the
opponent's pip count is the same, or larger by what the chequer that was hit has to go again. -/
theorem C105_step (b : Board) (pm : PartialMove) (hv : Valid b)
    (hl : LegalStep (mine b) (theirs b) pm.die pm.src pm.dest pm.isHitting) :
    ∃ b', b.makePartialMove pm = .ok b' ∧
      pips (mine b') = pips (mine b) - gone pm ∧ pips (theirs b') = pips (theirs b) + lost pm ∧
      1 ≤ gone pm ∧ gone pm ≤ pm.die ∧ (pm.dest ≠ -1 → gone pm = pm.die) ∧
      0 ≤ lost pm ∧ lost pm ≤ 24 ∧ (lost pm = 0 ↔ pm.isHitting = false) := by
  obtain ⟨b', hm, hs, _⟩ := step_exists hv hl
  have h1 := pips_step hs
  have h2 := gone_step hl
  have h3 := lost_step hl
  exact ⟨b', hm, h1.1, h1.2, h2.1, h2.2.1, h2.2.2, h3.1, h3.2.1, h3.2.2⟩

/-- A hit on the mover's four point: two pips for the mover, and four the other player has to go again. -/
example : LegalStep (mine exHit) (theirs exHit) 2 5 3 true ∧ pips (mine exHit) = 167 ∧
    gone ⟨2, 5, 3, true⟩ = 2 ∧ lost ⟨2, 5, 3, true⟩ = 4 :=
  ⟨by left; unfold LegalMove; decide, by decide +kernel, by decide, by decide⟩

/-- **C105**, a turn: whatever is played with the suggestions of a move factory and taken back, the pip counts are those
of the movements that remain; together these go at most what was rolled, and exactly the dice that have been used if no
chequer was borne off. -/
theorem C105_turn (b : Board) (hv : Valid b) (h1 : 1 ≤ b.rolled.1 ∧ b.rolled.1 ≤ 6) (h2 : 1 ≤ b.rolled.2 ∧ b.rolled.2 ≤ 6)
    (f : Factory) (h : Suggested b f) :
    pips (mine f.board) = pips (mine b) - (f.move.map gone).sum ∧
    pips (theirs f.board) = pips (theirs b) + (f.move.map lost).sum ∧
    (f.move.map gone).sum + (diceLeft f.avail).sum ≤ (diceOf b.rolled).sum ∧
    ((∀ pm ∈ f.move, pm.dest ≠ -1) → (f.move.map gone).sum + (diceLeft f.avail).sum = (diceOf b.rolled).sum) := by
  obtain ⟨hp, hd, _⟩ := C91_legal b hv h1 h2 f h
  obtain ⟨p1, p2, p3, p4, p5⟩ := pips_play hp
  have hs : ∀ l l' : List Int, l.Perm l' → l.sum = l'.sum := by
    intro l l' hl
    induction hl with
    | nil => rfl
    | cons x _ ih => simp [ih]
    | swap x y l => simp only [List.sum_cons]; omega
    | trans _ _ i1 i2 => exact i1.trans i2
  have hd := hs _ _ hd
  rw [List.sum_append] at hd
  exact ⟨p1, p2, by omega, fun c => by have := p5 c; omega⟩

/-- **C105**, whole plays: no play has more movements than pips are left to go. -/
theorem C105_length (b b' : Board) (pms : List PartialMove) (hv : Valid b) (hp : PlayTo b pms b') :
    (pms.length : Int) ≤ pips (mine b) := by
  obtain ⟨_, hv', _⟩ := C12_play b b' pms hv hp
  obtain ⟨p1, _, p3, _⟩ := pips_play hp
  have := (pips_bounds hv'.mine_row).1
  have h0 : 0 ≤ total (mine b') := by
    have := row_cnt_le hv'.mine_row 0
    have := hv'.mine_row.2 0
    omega
  omega

/-- **C105**, all boards of a game: the pip count of a player is between the number of their chequers, which is at most
fifteen, and twenty-five times as many; it is nought exactly when all are borne off. -/
theorem C105_bounds (first b : Board) (ht : Table first) (hc : Course first b) (r : List Int)
    (hr : r = b.position.1 ∨ r = b.position.2) :
    total r ≤ pips r ∧ pips r ≤ 375 ∧ (pips r = 0 ↔ total r = 0) := by
  have ht := (course_same ht hc).table
  have h : Row r ∧ total r ≤ 15 := by
    rcases hr with rfl | rfl
    · exact ⟨ht.row1, ht.fifteen1⟩
    · exact ⟨ht.row2, ht.fifteen2⟩
  have hb := pips_bounds h.1
  have h0 := row_cnt_le h.1 0
  have h1 := h.1.2 0
  exact ⟨hb.1, by omega, by omega⟩

/-- In the opening position both have 167 pips to go. -/
example : pips initialRow = 167 ∧ total initialRow = 15 := by decide +kernel

/-- The opening 3-1 played: four pips. -/
example : pips (mine (exBoard.make [⟨3, 7, 4, false⟩, ⟨1, 5, 4, false⟩]).st) = 163 := by decide +kernel

/-! ### C106 -/

/-- The end of a race for money: you have one chequer on the ace point, he has five; it is your turn. -/
def exLast : Board :=
  { gameState := ON_GOING, position := (1 :: List.replicate 24 0, 5 :: List.replicate 24 0) }

theorem exLast_table : Table exLast := by
  have hr : ∀ x : Int, 0 ≤ x → Row (x :: List.replicate 24 0) := by
    intro x hx
    refine ⟨rfl, fun i => ?_⟩
    cases i with
    | zero => simpa [cnt] using hx
    | succ i =>
      simp only [cnt, List.getD_eq_getElem?_getD, List.getElem?_cons_succ, List.getElem?_replicate]
      split <;> simp
  exact ⟨hr 1 (by omega), hr 5 (by omega), by decide, by decide, by decide, .inr (.inr rfl), .inl rfl, .inl rfl, by decide,
    by decide, by decide⟩

/-- The board after you rolled 2-1, took the last chequer off and picked up the dice. -/
def exGone : Board :=
  { exLast with position := (List.replicate 25 0, 5 :: List.replicate 24 0), onAction := HIM, onInnerAction := HIM }

theorem exGone_course : Course exLast exGone := by
  have c1 := Course.next _ _ .first (.roll exLast 0 2 1 (by decide) (by decide) (by decide))
  have c2 := Course.next _ _ c1 (.move _ _ ⟨1, 0, -1, false⟩ (.inr ⟨rfl, rfl, by
    refine ⟨by decide, by decide, by decide, by decide, by decide, ?_, .inl rfl⟩
    intro i hi
    by_cases h : i < 25
    · have : ∀ j < 25, 6 ≤ j → cnt (mine { exLast with rolled := (2, 1) }) j = 0 := by decide +kernel
      exact this i h hi
    · exact cnt_out rfl (by omega)⟩) rfl)
  exact Course.next _ _ c2 (.act _ .pickupDice trivial rfl)

/-- A game is over when one of the players has no chequer left, and nobody gets points for it but the winner. -/
def C106_statement : Prop := ∀ first b : Board, Table first → first.gameState = ON_GOING → Course first b →
  total b.position.1 = 0 → b.gameState ≠ ON_GOING ∧ ∀ b', Ends b b' → b'.score.2 = b.score.2

/-- **C106** is false: after your last chequer was borne off the game is going on; he may roll or double, and
when you do not take that double, the points are given to him. -/
theorem C106_false : ¬ C106_statement := fun h =>
  (h exLast exGone exLast_table rfl exGone_course (by decide)).1 rfl

/-- **C106**, what happens then: he doubles, you drop, he has won a point. -/
theorem C106_false_points : Course exLast exGone ∧ total exGone.position.1 = 0 ∧ exGone.isLegalToRoll HIM = true ∧
    exGone.isLegalToDouble HIM = .ok true ∧
    ∃ b b', Course exLast b ∧ exGone.double HIM = ⟨b, none⟩ ∧ b.drop YOU = ⟨b', none⟩ ∧ b'.score = (0, 1) :=
  ⟨exGone_course, by decide, by decide, by decide, (exGone.double HIM).st, ((exGone.double HIM).st.drop YOU).st,
    .next _ _ exGone_course (.act exGone (.double HIM) trivial (by decide)), by decide, by decide, by decide⟩

/-- **C106**, always: no movement, and nothing else that happens while a game is going on, ends it or changes a score,
even when no chequer is left; state 2, finished, is never reached. -/
theorem C106_never (first b : Board) (ht : Table first) (hg : first.gameState = ON_GOING) :
    (Course first b → b.gameState = ON_GOING ∧ (b.score = first.score ∨ b.score = (first.score.2, first.score.1))) ∧
    (OfGame first b → b.gameState ≠ FINISHED) := by
  have h1 : ∀ c, Course first c → c.gameState = ON_GOING ∧ (c.score = first.score ∨ c.score = (first.score.2, first.score.1)) :=
    fun c hc => ⟨(course_same ht hc).state.trans hg, (course_same ht hc).score⟩
  refine ⟨h1 b, ?_⟩
  rintro (hc | ⟨c, hc, he⟩)
  · rw [(h1 b hc).1]; decide
  · obtain ⟨s, g, p, q, rfl, hg, _⟩ := ends_same (course_same ht hc).table he
    rcases hg with rfl | rfl <;> simp [FINISHED]

/-- **C106**, what is true: a game ends when a double is dropped or a resignation accepted; then nobody may roll, move
or double any more. -/
theorem C106_ends_partial (first c b : Board) (ht : Table first) (hc : Course first c) (he : Ends c b) (who : Int) :
    b.isLegalToRoll who = false ∧ b.isLegalToMove who = false ∧ b.isLegalToDouble who = .error .assertion := by
  obtain ⟨s, g, p, q, rfl, hg, _⟩ := ends_same (course_same ht hc).table he
  have hg : g ≠ ON_GOING := by rcases hg with rfl | rfl <;> decide
  simp [Board.isLegalToRoll, Board.isLegalToMove, Board.isLegalToDouble, hg]

/-- A player with no chequers left cannot move, whatever is rolled. -/
theorem C106_none (b : Board) (hv : Valid b) (h0 : total (mine b) = 0) (die src dest : Int) (hit : Bool) :
    ¬ LegalStep (mine b) (theirs b) die src dest hit := by
  have hz : ∀ i, cnt (mine b) i = 0 := fun i => by
    have := row_cnt_le hv.mine_row i
    have := hv.mine_row.2 i
    omega
  rintro (⟨_, _, _, _, _, h, _⟩ | ⟨_, _, _, _, _, _, h, _⟩) <;> rw [hz] at h <;> omega

example : ∃ b', Ends (exGone.double HIM).st b' := ⟨_, 0, .inl (by decide : (exGone.double HIM).st.drop 0 = ⟨((exGone.double HIM).st.drop 0).st, none⟩)⟩

end Bglib
