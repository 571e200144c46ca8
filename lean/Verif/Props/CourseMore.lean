import Verif.Props.Course
import Verif.Props.DbByte
import Verif.Props.Mag
/-
C89, continued: every board of a game can be kept in the database, and there is a picture of it in every style.
-/
namespace Bglib
open Spec Img

/-- **C89**, keeping: every board of a game can be kept in the database, and what is kept is that board. -/
theorem C89_kept (first b : Board) (h : Table first) (hg : OfGame first b) :
    ∃ e, dbExpr b = .ok e ∧ e.toModel = .ok b := by
  obtain ⟨ht, _⟩ := C89_boards first b h hg
  have c1 := fun i => Int.le_trans (row_cnt_le ht.row1 i) (Int.le_trans ht.fifteen1 (by decide : (15 : Int) ≤ 127))
  have c2 := fun i => Int.le_trans (row_cnt_le ht.row2 i) (Int.le_trans ht.fifteen2 (by decide : (15 : Int) ≤ 127))
  refine C10_board b ht.turn ⟨ht.row1, ht.row2, c1, c2, ht.apart⟩ ⟨ht.row2, ht.row1, c2, c1, fun i hi => ?_⟩
  have := ht.apart (23 - i) (by omega)
  rw [show 23 - (23 - i) = i by omega] at this
  exact this.symm

private theorem run_rolled (b : Board) (e : Edit)
    (he : match e with | .double _ | .take _ | .drop _ | .offerResign _ _ | .acceptResign _ | .rejectResign _
                       | .pickupDice | .flip => True | _ => False) :
    (e.run b).st.rolled = b.rolled ∨ (e.run b).st.rolled = (0, 0) := by
  cases e <;> first | exact he.elim | skip
  all_goals
    simp only [Edit.run, Board.double, Board.take, Board.drop, Board.offerResign, Board.acceptResign, Board.rejectResign,
      Board.pickupDice, Board.flip]
  all_goals (repeat' split) <;> first | exact .inl rfl | exact .inr rfl

/-- While the game goes on the dice are lifted or both show 1 to 6. -/
theorem course_dice {first b : Board} (h : Table first) (hd : DiceOk first) (hc : Course first b) : DiceOk b := by
  induction hc with
  | first => exact hd
  | next b b' hc hs ih =>
    cases hs with
    | roll _ who d1 d2 _ h1 h2 => exact .inr ⟨h1.1, h1.2, h2.1, h2.2⟩
    | move _ _ pm hL hm =>
      have e := (step_table (course_same h hc).table hL hm).2
      unfold DiceOk; rw [e]; exact ih
    | back a _ _ pm ha hs hm =>
      obtain rfl := back_eq ha hs hm
      have e := hs.frame
      unfold DiceOk at ih; rw [e] at ih; exact ih
    | act _ e he hx =>
      have : (e.run b).st.rolled = b.rolled ∨ (e.run b).st.rolled = (0, 0) :=
        run_rolled b e (by cases e <;> first | trivial | exact he.elim)
      rcases this with e | e
      · unfold DiceOk; rw [e]; exact ih
      · exact .inl e

/-- **C89**, pictures: every board of a game that began with somebody to roll is drawn in every style that comes with the
library, at every size that can be had (C69). -/
theorem C89_pictured (s : Text × List Text) (hs : s ∈ shipped) (first b : Board) (h : Table first) (hd : DiceOk first)
    (h1 : first.onInnerAction = first.onAction) (h2 : first.doubled = false) (h3 : first.resignOffer = 0)
    (hg : OfGame first b) :
    ∃ rules, loadCss s.1 s.2 = .ok rules ∧ ∀ bw bh, SizeOk bw → SizeOk bh →
      SharpSize (boardSize s.1).1 (boardSize s.1).2 bw bh → ∃ ops, drawSized rules (bw, bh) b = .ok ops := by
  obtain ⟨rules, hl, hr⟩ := C69_draws s hs
  refine ⟨rules, hl, fun bw bh hw hh hz => (hr b bw bh ?_ ?_ ?_ hw hh).1 hz⟩
  · obtain ⟨t, _⟩ := C89_boards first b h hg
    exact ⟨t.row1.1, t.row2.1, t.owner, table_turns t⟩
  · have hw : ∀ c, Consistent c → Drawable c := fun c hc => by
      by_cases hi : c.onInnerAction = c.onAction
      · exact Or.inr (Or.inl hi)
      · exact Or.inr (Or.inr (hc.2 hi))
    rcases hg with hc | ⟨c, hc, he⟩
    · exact hw b (inGame_consistent b (course_inGame h h1 h2 h3 hc))
    · have := hw c (inGame_consistent c (course_inGame h h1 h2 h3 hc))
      obtain ⟨sc, g, p, q, e, _⟩ := ends_same (course_same h hc).table he
      rw [e]; exact this
  · rcases hg with hc | ⟨c, hc, he⟩
    · exact course_dice h hd hc
    · obtain ⟨sc, g, p, q, e, _⟩ := ends_same (course_same h hc).table he
      have hd' : DiceOk c := course_dice h hd hc
      rw [e]; exact hd'

example : Table exFirst ∧ DiceOk exFirst ∧ OfGame exFirst exFirst := ⟨exFirst_table, .inl rfl, .inl .first⟩

end Bglib
