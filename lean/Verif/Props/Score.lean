import Verif.Model.Heap
/-
C21: points are awarded to the right player, once.
-/
namespace Bglib

/-- The game actions of the editor (everything but direct assignment and `flip`). -/
def isGameAction : Edit → Bool
  | .set _ => false
  | .setExtra _ => false
  | .flip => false
  | _ => true

/-- Specification of the points awarded: (to you, to him).  A dropped double earns the doubler — the
player who is not asked — the value of the cube before the double; an accepted resignation earns the
accepter 1, 2 or 3 times the cube.  Nothing else earns points. -/
def award (b : Board) : Edit → Int × Int
  | .drop who =>
    if b.doubled = true ∧ b.onInnerAction ≠ b.onAction ∧ b.onInnerAction = who then
      if who = 0 then (0, 2 ^ b.cube) else if who = 1 then (2 ^ b.cube, 0) else (0, 0)
    else (0, 0)
  | .acceptResign who =>
    if 1 ≤ b.resignOffer ∧ b.resignOffer ≤ 3 ∧ b.onInnerAction = who then
      if who = 0 then (b.resignOffer * 2 ^ b.cube, 0)
      else if who = 1 then (0, b.resignOffer * 2 ^ b.cube) else (0, 0)
    else (0, 0)
  | _ => (0, 0)

/-- Apply actions one after the other, whatever exceptions they raise. -/
def playEdits (b : Board) : List Edit → Board
  | [] => b
  | e :: es => playEdits (e.run b).st es

/-- Sum of the awards along a history. -/
def awards (b : Board) : List Edit → Int × Int
  | [] => (0, 0)
  | e :: es => ((award b e).1 + (awards (e.run b).st es).1, (award b e).2 + (awards (e.run b).st es).2)

theorem makePartialMove_frame {b b' : Board} {pm : PartialMove} (h : b.makePartialMove pm = .ok b') :
    b'.score = b.score ∧ b'.gameState = b.gameState := by
  unfold Board.makePartialMove at h
  split at h
  · cases hm : Board.moveRows pm b.position.1 b.position.2 with
    | error e => simp [hm, bind, Except.bind] at h
    | ok p => simp [hm, bind, Except.bind, pure, Except.pure] at h; subst h; simp
  · split at h
    · cases hm : Board.moveRows pm b.position.2 b.position.1 with
      | error e => simp [hm, bind, Except.bind] at h
      | ok p => simp [hm, bind, Except.bind, pure, Except.pure] at h; subst h; simp
    · simp at h

theorem isToAcceptResign_iff (b : Board) (w : Int) :
    b.isToAcceptResign w = true ↔ 1 ≤ b.resignOffer ∧ b.resignOffer ≤ 3 ∧ b.onInnerAction = w := by
  have e : b.isToAcceptResign w = ((b.resignOffer = 1 || b.resignOffer = 2 || b.resignOffer = 3) &&
    b.onInnerAction = w) := rfl
  rw [e]; simp only [Bool.and_eq_true, Bool.or_eq_true, decide_eq_true_eq]; omega

/-- **C21**, one action: every game action, legal or refused, changes the score by exactly the award
the rules give. -/
theorem C21_action (b : Board) (e : Edit) (he : isGameAction e = true) :
    (e.run b).st.score = (b.score.1 + (award b e).1, b.score.2 + (award b e).2) := by
  cases e with
  | set a => simp [isGameAction] at he
  | setExtra n => simp [isGameAction] at he
  | flip => simp [isGameAction] at he
  | move pm =>
    simp only [Edit.run, award]
    split
    · next h => simp [(makePartialMove_frame h).1]
    · simp
  | double w =>
    simp only [Edit.run, award, Board.double]
    repeat' split
    all_goals simp
  | take w =>
    simp only [Edit.run, award, Board.take]
    split <;> simp
  | drop w =>
    simp only [Edit.run, award, Board.drop, Board.isCubeTakeOrPass, Board.newScore, YOU, HIM,
      Bool.and_eq_true, decide_eq_true_eq, and_assoc, ne_eq]
    by_cases c : b.doubled = true ∧ ¬ b.onInnerAction = b.onAction ∧ b.onInnerAction = w
    · simp only [c, if_true, not_false_iff, and_self]
      grind
    · simp only [c, if_false]; simp
  | offerResign w k =>
    simp only [Edit.run, award, Board.offerResign]
    repeat' split
    all_goals simp
  | acceptResign w =>
    simp only [Edit.run, award, Board.acceptResign, isToAcceptResign_iff, Board.newScore, YOU, HIM]
    by_cases c : 1 ≤ b.resignOffer ∧ b.resignOffer ≤ 3 ∧ b.onInnerAction = w
    · rw [if_pos c, if_pos c]
      grind
    · rw [if_neg c, if_neg c]; simp
  | rejectResign w =>
    simp only [Edit.run, award, Board.rejectResign]
    repeat' split
    all_goals simp
  | pickupDice =>
    simp only [Edit.run, award, Board.pickupDice]
    repeat' split
    all_goals simp

/-- **C21**, whole histories of any length. -/
theorem C21_history (b : Board) (es : List Edit) (he : ∀ e ∈ es, isGameAction e = true) :
    (playEdits b es).score = (b.score.1 + (awards b es).1, b.score.2 + (awards b es).2) := by
  induction es generalizing b with
  | nil => simp [playEdits, awards]
  | cons e es ih =>
    have h1 := C21_action b e (he e (by simp))
    have h2 := ih (e.run b).st (fun x hx => he x (by simp [hx]))
    simp only [playEdits, awards, h2, h1]
    simp only [Prod.mk.injEq]; omega

/-- **C21**: an award ends the game: dropping gives state 4, accepting a resignation state 3. -/
theorem C21_award_ends_game (b : Board) (e : Edit) (h : award b e ≠ (0, 0)) :
    (e.run b).err = none ∧ ((e.run b).st.gameState = DOUBLED_OUT ∨ (e.run b).st.gameState = RESIGNED) := by
  cases e with
  | drop w =>
    simp only [award] at h
    split at h
    · next c =>
      have hw : w = 0 ∨ w = 1 := by
        by_cases w0 : w = 0
        · exact Or.inl w0
        · by_cases w1 : w = 1
          · exact Or.inr w1
          · simp [w0, w1] at h
      have hc : b.isCubeTakeOrPass w = true := by simp [Board.isCubeTakeOrPass, c]; grind
      simp only [Edit.run, Board.drop, hc, if_true, Board.newScore, YOU, HIM]
      rcases hw with rfl | rfl <;> simp
    · exact absurd rfl h
  | acceptResign w =>
    simp only [award] at h
    split at h
    · next c =>
      have hw : w = 0 ∨ w = 1 := by
        by_cases w0 : w = 0
        · exact Or.inl w0
        · by_cases w1 : w = 1
          · exact Or.inr w1
          · simp [w0, w1] at h
      have hc : b.isToAcceptResign w = true := (isToAcceptResign_iff b w).2 c
      simp only [Edit.run, Board.acceptResign, hc, if_true, Board.newScore, YOU, HIM]
      rcases hw with rfl | rfl <;> simp
    · exact absurd rfl h
  | _ => simp [award] at h

/-- You doubled at score 1-3 with the cube on 8: he drops. -/
def exDrop : Board :=
  { gameState := ON_GOING, cube := 3, doubled := true, onInnerAction := 1, score := (1, 3), matchLength := 21 }

example : award exDrop (.drop 1) = (8, 0) ∧ ((Edit.drop 1).run exDrop).st.score = (9, 3) := by decide

/-- The full "once" part of C21: a game that is not running awards no points. -/
def C21_once_statement : Prop :=
  ∀ (b : Board) (e : Edit), isGameAction e = true → b.gameState ≠ ON_GOING →
    (e.run b).st.score = b.score

/-- **"Once" is false of the code**: after the drop ended the game, a second `drop` is accepted and
pays again. -/
theorem C21_once_false : ¬ C21_once_statement := by
  intro h
  have := h ((Edit.drop 1).run exDrop).st (.drop 1) (by decide) (by decide)
  revert this; decide

/-- A client that stops calling actions once the game is over. -/
def playWhileOn (b : Board) : List Edit → Board
  | [] => b
  | e :: es => if b.gameState = ON_GOING then playWhileOn (e.run b).st es else b

/-- **C21 once, what holds**: if the caller stops when the game is over (missing: the code does not
enforce it), at most one award is paid however long the history. -/
theorem C21_once_partial (b : Board) (es : List Edit) (he : ∀ e ∈ es, isGameAction e = true) :
    (playWhileOn b es).score = b.score ∨
    ∃ b' e, e ∈ es ∧ b'.score = b.score ∧ b'.gameState = ON_GOING ∧
      (playWhileOn b es).score = (b.score.1 + (award b' e).1, b.score.2 + (award b' e).2) := by
  induction es generalizing b with
  | nil => left; rfl
  | cons e es ih =>
    unfold playWhileOn
    split
    · next hg =>
      have ha := C21_action b e (he e (by simp))
      by_cases h0 : award b e = (0, 0)
      · rw [h0] at ha; simp at ha
        rcases ih (e.run b).st (fun x hx => he x (by simp [hx])) with h | ⟨b', e', h1, h2, h3, h4⟩
        · left; rw [h, ha]
        · right; exact ⟨b', e', by simp [h1], by rw [h2, ha], h3, by rw [h4, ha]⟩
      · right
        refine ⟨b, e, by simp, rfl, hg, ?_⟩
        have hend := (C21_award_ends_game b e h0).2
        have : playWhileOn (e.run b).st es = (e.run b).st := by
          cases es with
          | nil => rfl
          | cons f fs =>
            unfold playWhileOn
            rw [if_neg]
            rcases hend with h | h <;> rw [h] <;> decide
        rw [this, ha]
    · left; rfl

example : (playWhileOn exDrop [.drop 1, .drop 1, .drop 1]).score = (9, 3) := by decide

/-! ### C41: the cube along a history -/

/-- No game action, accepted or refused, turns the cube or gives it to anybody. -/
theorem C41_action_keeps_cube (b : Board) (e : Edit) (he : isGameAction e = true) :
    (e.run b).st.cube = b.cube ∧ (e.run b).st.cubeOwner = b.cubeOwner := by
  cases e with
  | set a => simp [isGameAction] at he
  | setExtra n => simp [isGameAction] at he
  | flip => simp [isGameAction] at he
  | move pm =>
    simp only [Edit.run]
    split
    · next h =>
      unfold Board.makePartialMove at h
      split at h
      · cases hm : Board.moveRows pm b.position.1 b.position.2 with
        | error e => simp [hm, bind, Except.bind] at h
        | ok p => simp [hm, bind, Except.bind, pure, Except.pure] at h; subst h; simp
      · split at h
        · cases hm : Board.moveRows pm b.position.2 b.position.1 with
          | error e => simp [hm, bind, Except.bind] at h
          | ok p => simp [hm, bind, Except.bind, pure, Except.pure] at h; subst h; simp
        · simp at h
    · simp
  | double w => simp only [Edit.run, Board.double]; (repeat' split) <;> simp
  | take w => simp only [Edit.run, Board.take]; (repeat' split) <;> simp
  | drop w => simp only [Edit.run, Board.drop]; (repeat' split) <;> simp
  | offerResign w k => simp only [Edit.run, Board.offerResign]; (repeat' split) <;> simp
  | acceptResign w => simp only [Edit.run, Board.acceptResign]; (repeat' split) <;> simp
  | rejectResign w => simp only [Edit.run, Board.rejectResign]; (repeat' split) <;> simp
  | pickupDice => simp only [Edit.run, Board.pickupDice]; (repeat' split) <;> simp

/-- **C41**, what holds: in every game begun with the cube in the centre, after every history of game
actions, a player whose double is accepted plays with a cube that is in the centre.  Missing: a take does not
turn the cube, and boards which were set up with an owned cube (`C41_false`). -/
theorem C41_game_partial (b : Board) (es : List Edit) (he : ∀ e ∈ es, isGameAction e = true)
    (hc : b.cubeOwner = 3) (who : Int) (_h : (playEdits b es).isLegalToDouble who = .ok true) :
    (playEdits b es).cubeOwner = who ∨ (playEdits b es).cubeOwner = 3 := by
  refine .inr ?_
  clear _h
  induction es generalizing b with
  | nil => exact hc
  | cons e es ih =>
    exact ih (e.run b).st (fun x hx => he x (by simp [hx]))
      (by rw [(C41_action_keeps_cube b e (he e (by simp))).2, hc])

example : (playEdits { gameState := ON_GOING } [.offerResign 0 1, .rejectResign 1]).isLegalToDouble 0
    = .ok true := by decide

end Bglib
