import Verif.Lemmas.Course
import Verif.Props.GnubgId
import Verif.Props.Xgid
import Verif.Props.Picture
/-
C89: every board of a game can be saved, passed on and drawn.
-/
namespace Bglib
open Spec Img

/-- **C89**, the boards: whatever the players do, every board of a game, the last one included, is a board that can lie
on a table, with the cube, the match and the Crawford flag of the first; and while the game goes on the score is the
one of the first board (turned round as often as the board was). -/
theorem C89_boards (first b : Board) (h : Table first) (hg : OfGame first b) :
    Table b ∧ b.cube = first.cube ∧ b.matchLength = first.matchLength ∧ b.crawford = first.crawford ∧
    (Course first b → b.gameState = first.gameState ∧
      (b.score = first.score ∨ b.score = (first.score.2, first.score.1))) := by
  rcases hg with hc | ⟨c, hc, he⟩
  · have := course_same h hc
    exact ⟨this.table, this.cube, this.length, this.crawford, fun _ => ⟨this.state, this.score⟩⟩
  · have hs := course_same h hc
    obtain ⟨s, g, p, q, e, _⟩ := ends_same hs.table he
    have ht := hs.table
    refine ⟨?_, ?_, ?_, ?_, fun hc' => ⟨(course_same h hc').state, (course_same h hc').score⟩⟩
    · rw [e]; exact ⟨ht.1, ht.2, ht.3, ht.4, ht.5, ht.6, ht.7, ht.8, ht.9, ht.10, ht.11⟩
    · rw [e]; exact hs.cube
    · rw [e]; exact hs.length
    · rw [e]; exact hs.crawford

/-- **C89**, saving: every board of a game can be written as GNU Backgammon IDs, and reading them into any editor gives
exactly that board.  The game is one of a match, or the first of a money session, and the points it can bring fit. -/
theorem C89_saved_partial (first b b0 : Board) (h : Table first) (hcube : first.cube < 16)
    (hstate : 0 ≤ first.gameState ∧ first.gameState < 8) (hlen : 0 ≤ first.matchLength ∧ first.matchLength < 32768)
    (h1 : 0 ≤ first.score.1 ∧ first.score.1 + 3 * 2 ^ first.cube < 32768)
    (h2 : 0 ≤ first.score.2 ∧ first.score.2 + 3 * 2 ^ first.cube < 32768)
    (hm : first.matchLength = 0 → first.score = (0, 0)) (hg : OfGame first b) :
    ∃ pid mid, gnubgEncode b = .ok (pid, mid) ∧ gnubgDecode b0 pid mid = ⟨b, none⟩ := by
  obtain ⟨ht, e1, e2, e3, _⟩ := C89_boards first b h hg
  have hpos : (0 : Int) < 2 ^ first.cube := Int.pow_pos (by omega)
  have key : (0 ≤ b.gameState ∧ b.gameState < 8) ∧ (0 ≤ b.score.1 ∧ b.score.1 < 32768) ∧
      (0 ≤ b.score.2 ∧ b.score.2 < 32768) ∧
      ¬ (b.gameState = ON_GOING ∧ b.matchLength = 0 ∧ (0 < b.score.1 ∨ 0 < b.score.2)) := by
    rcases hg with hc | ⟨c, hc, he⟩
    · have hs := course_same h hc
      refine ⟨hs.state ▸ hstate, ?_, ?_, ?_⟩
      · rcases hs.score with e | e <;> rw [e] <;> (try simp only) <;> omega
      · rcases hs.score with e | e <;> rw [e] <;> (try simp only) <;> omega
      · rintro ⟨_, hl, hp⟩
        have := hm (hs.length ▸ hl)
        rcases hs.score with e | e <;> rw [e, this] at hp <;> simp at hp
    · have hs := course_same h hc
      obtain ⟨s, g, p, q, e, hg, es, p0, q0, p3, q3⟩ := ends_same hs.table he
      rw [hs.cube] at p3 q3
      have eg : b.gameState = g := by rw [e]
      have esc : b.score = (c.score.1 + p, c.score.2 + q) := by rw [e, ← es]
      refine ⟨by rw [eg]; omega, ?_, ?_, ?_⟩
      · rw [esc]; rcases hs.score with e | e <;> rw [e] <;> simp only <;> omega
      · rw [esc]; rcases hs.score with e | e <;> rw [e] <;> simp only <;> omega
      · rintro ⟨hl, _⟩
        simp only [ON_GOING] at hl; omega
  have d1 := ht.die1
  have d2 := ht.die2
  have ho := ht.owner
  have hr := ht.resign
  exact C06_roundtrip_partial b b0 ⟨ht.row1, ht.row2, e1 ▸ hcube, by omega, ht.turn, key.1, ht.inner, by omega,
    by omega, by omega, e2 ▸ hlen, key.2.1, key.2.2.1⟩ key.2.2.2

/-- C89, disagreement: the second game of a money session, after one point won, cannot be saved at any moment: the IDs are
written, and refused when read. -/
theorem C89_false_session : ∃ first, Table first ∧ first.gameState = 1 ∧ first.matchLength = 0 ∧ first.score = (1, 0) ∧
    first.cube = 0 ∧ ∀ b b0, Course first b →
      ∃ pid mid, gnubgEncode b = .ok (pid, mid) ∧ (gnubgDecode b0 pid mid).err = some .inconsistentData := by
  have ht : Table { gameState := 1, score := (1, 0) } :=
    ⟨row_of_mem (by decide) (by decide), row_of_mem (by decide) (by decide), by decide, by decide, by decide,
      by decide, by decide, by decide, by decide, by decide, by decide⟩
  refine ⟨_, ht, rfl, rfl, rfl, rfl, fun b b0 hc => ?_⟩
  have hs := course_same ht hc
  have t := hs.table
  have d1 := t.die1
  have d2 := t.die2
  have ho := t.owner
  have hr := t.resign
  have e1 := hs.cube
  have e2 := hs.length
  have e3 := hs.state
  have e4 := hs.score
  simp only at e1 e2 e3 e4
  refine C06_money_false b b0 ⟨t.row1, t.row2, by omega, by omega, t.turn, by omega, t.inner, by omega,
    by omega, by omega, by rw [e2]; decide, ?_, ?_⟩ e3 e2 ?_
  · rcases e4 with e | e <;> rw [e] <;> decide
  · rcases e4 with e | e <;> rw [e] <;> decide
  · rcases e4 with e | e <;> rw [e] <;> decide

/-- **C89**, passing on: the XGID that eXtreme Gammon writes for any board of a game is read as that board, apart from
what XGID cannot tell: that the game is over, and an unanswered double or resignation. -/
theorem C89_xgid (first b b0 : Board) (cubeMax : Text) (h : Table first) (hlen : 0 ≤ first.matchLength)
    (hm : first.matchLength = 0 → first.crawford = false) (hc : ':' ∉ cubeMax) (hg : OfGame first b) :
    xgDecode b0 (xgid b cubeMax) =
      ⟨{ b with gameState := ON_GOING, onInnerAction := b.onAction, doubled := b0.doubled,
                resignOffer := b0.resignOffer }, none⟩ := by
  obtain ⟨ht, _, e2, e3, _⟩ := C89_boards first b h hg
  have d1 := ht.die1
  have d2 := ht.die2
  exact C07_decode b b0 ⟨ht.row1, ht.row2, fun i => Int.le_trans (row_cnt_le ht.row1 i) ht.fifteen1,
    fun i => Int.le_trans (row_cnt_le ht.row2 i) ht.fifteen2, ht.apart, ht.owner, ht.turn, by omega, by omega,
    e2 ▸ hlen, by rw [e2, e3]; exact hm⟩ cubeMax hc

theorem course_inGame {first b : Board} (h : Table first) (h1 : first.onInnerAction = first.onAction)
    (h2 : first.doubled = false) (h3 : first.resignOffer = 0) (hc : Course first b) : InGame b := by
  induction hc with
  | first => exact .start _ ⟨h.row1.1, h.row2.1, h.owner, h.turn, h.inner⟩ h1 h2 h3
  | next b b' _ hs ih =>
    refine .step _ _ ih ?_
    cases hs with
    | roll _ who d1 d2 hl _ _ => exact .roll _ who d1 d2 hl
    | move _ _ pm _ hm => exact .move _ _ pm hm
    | back a _ _ pm _ _ hm => exact .move _ _ _ hm
    | act _ e he hx =>
      refine .act _ e ?_ hx
      cases e <;> first | trivial | exact he.elim

/-- **C89**, drawing: every board of a game that began with somebody to roll can be drawn. -/
theorem C89_drawn (first b : Board) (h : Table first) (h1 : first.onInnerAction = first.onAction)
    (h2 : first.doubled = false) (h3 : first.resignOffer = 0) (hg : OfGame first b) :
    ∃ t, ETree.create.set b = .ok t := by
  refine C61_drawable b ?_
  rcases hg with hc | ⟨c, hc, who, he | he⟩
  · exact course_inGame h h1 h2 h3 hc
  · have := InGame.step _ _ (course_inGame h h1 h2 h3 hc) (.act c (.drop who) trivial
      (by show (c.drop who).err = none; rw [he]))
    rwa [show (Edit.run c (.drop who)).st = b by show (c.drop who).st = b; rw [he]] at this
  · have := InGame.step _ _ (course_inGame h h1 h2 h3 hc) (.act c (.acceptResign who) trivial
      (by show (c.acceptResign who).err = none; rw [he]))
    rwa [show (Edit.run c (.acceptResign who)).st = b by show (c.acceptResign who).st = b; rw [he]] at this

/-- A first board of a match to 5. -/
def exFirst : Board := { gameState := 1, matchLength := 5 }

theorem exFirst_table : Table exFirst :=
  ⟨row_of_mem (by decide) (by decide), row_of_mem (by decide) (by decide), by decide, by decide, by decide,
    by decide, by decide, by decide, by decide, by decide, by decide⟩

/-- You roll 3-1 and make your five point, lift the dice, he doubles and you drop: 1 point for him. -/
example : Table exFirst ∧ exFirst.onInnerAction = exFirst.onAction ∧ ∃ b, OfGame exFirst b ∧ b.gameState = 4 ∧
    b.score = (0, 1) ∧ cnt b.position.1 4 = 2 ∧
    ∃ b', OfGame exFirst b' ∧ b'.rolled = (3, 1) ∧ cnt b'.position.1 4 = 1 := by
  refine ⟨exFirst_table, rfl, ?_⟩
  have c1 := Course.next _ _ .first (.roll exFirst 0 3 1 (by decide) (by decide) (by decide))
  have c2 := Course.next _ _ c1 (.move _ _ ⟨3, 7, 4, false⟩ (.inl (by unfold LegalMove; decide)) rfl)
  have c3 := Course.next _ _ c2 (.move _ _ ⟨1, 5, 4, false⟩ (.inl (by unfold LegalMove; decide)) rfl)
  have c4 := Course.next _ _ c3 (.act _ .pickupDice trivial rfl)
  have c5 := Course.next _ _ c4 (.act _ (.double 1) trivial rfl)
  exact ⟨_, .inr ⟨_, c5, 0, .inl rfl⟩, rfl, rfl, rfl, _, .inl c2, rfl, rfl⟩

end Bglib
