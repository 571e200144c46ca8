import Verif.Model.Heap
/-
C14 (flip), C20 (doubling), C21 (points), C22 (who may act), C23 (boards are values),
C41 (cube ownership).
-/
namespace Bglib

/-! ### C14 -/

/-- The values `flip` understands: the two players and "center". -/
def IsSeat (x : Int) : Prop := x = 0 ∨ x = 1 ∨ x = 3
instance (x : Int) : Decidable (IsSeat x) := by unfold IsSeat; infer_instance

/-- Specification: the other seat, the centre stays. -/
def otherSeat (x : Int) : Int := if x = 0 then 1 else if x = 1 then 0 else x

/-- **C14**: whenever owner, turn and inner turn are players or centre, `flip` succeeds and swaps every
per-player attribute, keeping all others; otherwise it raises `AssertionError`. -/
theorem C14_flip (b : Board) :
    (IsSeat b.cubeOwner ∧ IsSeat b.onInnerAction ∧ IsSeat b.onAction →
      b.flip = ⟨{ position := (b.position.2, b.position.1), cube := b.cube,
                  cubeOwner := otherSeat b.cubeOwner, onAction := otherSeat b.onAction,
                  crawford := b.crawford, gameState := b.gameState,
                  onInnerAction := otherSeat b.onInnerAction, doubled := b.doubled,
                  resignOffer := b.resignOffer, rolled := b.rolled,
                  matchLength := b.matchLength, score := (b.score.2, b.score.1) }, none⟩) ∧
    (¬ (IsSeat b.cubeOwner ∧ IsSeat b.onInnerAction ∧ IsSeat b.onAction) →
      b.flip.err = some .assertion) := by
  constructor
  · rintro ⟨h1 | h1 | h1, h2 | h2 | h2, h3 | h3 | h3⟩ <;>
      simp [Board.flip, h1, h2, h3, YOU, HIM, CENTER, otherSeat]
  · intro h
    unfold Board.flip
    have key : ∀ x : Int, ¬ IsSeat x →
        (if x = YOU then some HIM else if x = HIM then some YOU
          else if x = CENTER then some CENTER else none) = (none : Option Int) := by
      intro x hx
      unfold IsSeat at hx
      simp only [not_or] at hx
      simp [YOU, HIM, CENTER, hx]
    have key2 : ∀ x : Int, IsSeat x → ∃ y,
        (if x = YOU then some HIM else if x = HIM then some YOU
          else if x = CENTER then some CENTER else none) = some y := by
      rintro x (h | h | h) <;> simp [YOU, HIM, CENTER, h]
    by_cases c1 : IsSeat b.cubeOwner
    · obtain ⟨y1, e1⟩ := key2 _ c1
      by_cases c2 : IsSeat b.onInnerAction
      · obtain ⟨y2, e2⟩ := key2 _ c2
        have c3 : ¬ IsSeat b.onAction := fun c3 => h ⟨c1, c2, c3⟩
        simp [e1, e2, key _ c3]
      · simp [e1, key _ c2]
    · simp [key _ c1]

/-- **C14**: flipping twice restores the board. -/
theorem C14_flip_flip (b : Board)
    (h : IsSeat b.cubeOwner ∧ IsSeat b.onInnerAction ∧ IsSeat b.onAction) :
    ∃ b', b.flip = ⟨b', none⟩ ∧ b'.flip = ⟨b, none⟩ := by
  refine ⟨_, (C14_flip b).1 h, ?_⟩
  rw [(C14_flip _).1]
  · obtain ⟨h1, h2, h3⟩ := h
    have e : ∀ x, IsSeat x → otherSeat (otherSeat x) = x := by
      rintro x (h | h | h) <;> simp [otherSeat, h]
    simp [e _ h1, e _ h2, e _ h3]
  · obtain ⟨h1, h2, h3⟩ := h
    have e : ∀ x, IsSeat x → IsSeat (otherSeat x) := by
      rintro x (h | h | h) <;> simp [otherSeat, h, IsSeat]
    exact ⟨e _ h1, e _ h2, e _ h3⟩

example : IsSeat ({} : Board).cubeOwner ∧ IsSeat ({} : Board).onInnerAction ∧ IsSeat ({} : Board).onAction ∧
    ({ score := (1, 2) } : Board).flip ≠ ⟨{ score := (1, 2) }, none⟩ := by decide

/-! ### C20, C41: doubling -/

/-- The full property C20: a double by `who` is answered alike on the flipped board for the opponent. -/
def C20_statement : Prop :=
  ∀ (b b' : Board) (who : Int), (who = 0 ∨ who = 1) → (b.onAction = 0 ∨ b.onAction = 1) →
    b.flip = ⟨b', none⟩ → b.isLegalToDouble who = b'.isLegalToDouble (1 - who)

/-- A 3-point match, cube on 1, you have 2 points: the code lets you double, but not him in the same
situation. -/
def c20Witness : Board := { gameState := ON_GOING, matchLength := 3, score := (2, 0) }

/-- **C20 is false of the code**: at score `match_length - cube` you may double and he may not
(board.py:165 uses `<=`, board.py:174 `<`). -/
theorem C20_false : ¬ C20_statement := by
  intro h
  have := h c20Witness { c20Witness with score := (0, 2), onAction := 1, onInnerAction := 1 } 0
    (Or.inl rfl) (Or.inl rfl) (by decide)
  revert this; decide

/-- Specification: the mover's points, and the points that one cube value is worth. -/
def moverScore (b : Board) : Int := if b.onAction = 0 then b.score.1 else b.score.2

/-- **C20**, what holds: the answers agree whenever the mover's score is not exactly
`match_length - cube` (missing: that one score), for both players, including the exceptions raised. -/
theorem C20_symmetric_partial (b b' : Board) (who : Int) (hw : who = 0 ∨ who = 1)
    (ht : b.onAction = 0 ∨ b.onAction = 1) (hf : b.flip = ⟨b', none⟩)
    (hs : moverScore b ≠ b.matchLength - 2 ^ b.cube) :
    b.isLegalToDouble who = b'.isLegalToDouble (1 - who) := by
  by_cases hseat : IsSeat b.cubeOwner ∧ IsSeat b.onInnerAction ∧ IsSeat b.onAction
  · rw [(C14_flip b).1 hseat] at hf
    cases hf
    obtain ⟨_, h2, _⟩ := hseat
    unfold moverScore at hs
    unfold Board.isLegalToDouble
    rcases hw with rfl | rfl <;> rcases ht with h | h <;> rcases h2 with h2 | h2 | h2 <;>
      simp [h, h2, YOU, HIM, otherSeat] at hs ⊢ <;>
      (repeat' split) <;> first | rfl | omega | simp_all <;> omega
  · have := (C14_flip b).2 hseat
    rw [hf] at this; simp at this

example : moverScore { c20Witness with score := (1, 0) } ≠ 3 - 2 ^ 0 ∧
    ({ c20Witness with score := (1, 0) } : Board).isLegalToDouble 0 = .ok true := by decide

/-- **C20**: a double is never accepted in a Crawford game, out of turn, after a roll, while a double
or an answer of the opponent is pending, or outside a running game. -/
theorem C20_never (b : Board) (who : Int) (h : b.isLegalToDouble who = .ok true) :
    b.crawford = false ∧ b.onAction = who ∧ b.onInnerAction = who ∧ b.rolled = (0, 0) ∧
      b.doubled = false ∧ b.gameState = ON_GOING ∧ (who = 0 ∨ who = 1) ∧
      (b.matchLength = 0 ∨ moverScore b + 2 ^ b.cube ≤ b.matchLength) := by
  unfold Board.isLegalToDouble at h
  unfold moverScore
  simp only [YOU, HIM, MONEY_GAME] at *
  grind (splits := 25)

example : c20Witness.isLegalToDouble 0 = .ok true := by decide

/-- **C20**, exactly when the code lets a player double: the two players differ in one comparison only. -/
theorem C20_exact (b : Board) (who : Int) : b.isLegalToDouble who = .ok true ↔
    b.rolled = (0, 0) ∧ b.gameState = ON_GOING ∧ b.crawford = false ∧ b.doubled = false ∧
      b.onAction = who ∧ b.onInnerAction = who ∧ (who = 0 ∨ who = 1) ∧
      (b.matchLength = 0 ∨ (who = 0 ∧ b.score.1 + 2 ^ b.cube ≤ b.matchLength) ∨
        (who = 1 ∧ b.score.2 + 2 ^ b.cube < b.matchLength)) := by
  unfold Board.isLegalToDouble
  simp only [YOU, HIM, MONEY_GAME]
  constructor
  · intro h
    grind (splits := 25)
  · rintro ⟨h1, h2, h3, h4, h5, h6, h7, h8⟩
    rcases h7 with rfl | rfl
    all_goals
      simp only [h1, h2, h3, h4, h5, h6]
    all_goals
      by_cases hm : b.matchLength = 0
      · simp [hm]
      · have := h8.resolve_left hm
        simp only [Int.reduceEq, false_and, true_and, or_false, false_or] at this
        simp only [hm, if_false, ne_eq, not_true, Bool.false_eq_true, if_true, Int.reduceEq]
        rw [if_pos (by omega)]

example : ({ c20Witness with score := (0, 1), onAction := 1, onInnerAction := 1 } : Board).isLegalToDouble 1 = .ok true := by
  decide

/-- The full property C41: only the owner of the cube, or anyone while it is in the centre, may
double. -/
def C41_statement : Prop :=
  ∀ (b : Board) (who : Int), b.isLegalToDouble who = .ok true → b.cubeOwner = who ∨ b.cubeOwner = 3

/-- **C41 is false of the code**: `is_leagal_to_double` ignores the cube owner. -/
theorem C41_false : ¬ C41_statement := by
  intro h
  have := h { gameState := ON_GOING, cubeOwner := 1, cube := 1 } 0 (by decide)
  revert this; decide

/-- C41, even after legal play: you double, he takes, his cube; the next turn nobody may double again,
because `doubled` is never reset, and the cube never changes value or owner. -/
theorem C41_take_keeps_cube (b : Board) (who : Int) :
    (b.take who).st.cube = b.cube ∧ (b.take who).st.cubeOwner = b.cubeOwner ∧
    (b.take who).st.doubled = b.doubled := by
  unfold Board.take; split <;> simp

/-- **C41**, what the code does instead: the answer to a double never depends on the owner of the cube. -/
theorem C41_owner_ignored (b : Board) (owner who : Int) :
    ({ b with cubeOwner := owner } : Board).isLegalToDouble who = b.isLegalToDouble who := rfl

/-! ### C22: who may act -/

/-- The decisions a player can be asked for. -/
inductive Decision where
  | roll | move | double | resign | takeOrPass | redouble | answerResign
deriving DecidableEq, Repr

/-- The code's answer to "may `who` do this?". -/
def allowed (b : Board) (who : Int) : Decision → Prop
  | .roll => b.isLegalToRoll who = true
  | .move => b.isLegalToMove who = true
  | .double => b.isLegalToDouble who = .ok true
  | .resign => b.isLegalToResign who = true
  | .takeOrPass => b.isCubeTakeOrPass who = true
  | .redouble => b.isLegalToRedouble who = true
  | .answerResign => b.isToAcceptResign who = true

/-- **C22**: on every board whatsoever, at most one player may act, whichever decisions are compared. -/
theorem C22_one_actor (b : Board) (p q : Int) (d e : Decision)
    (hp : allowed b p d) (hq : allowed b q e) : p = q := by
  have key : ∀ w d, allowed b w d → b.onInnerAction = w := by
    intro w d h
    cases d <;> simp only [allowed] at h
    · simp [Board.isLegalToRoll] at h; exact h.2
    · simp [Board.isLegalToMove] at h; exact h.1.1.2
    · exact (C20_never b w h).2.2.1
    · simp [Board.isLegalToResign] at h; exact h.2
    · simp [Board.isCubeTakeOrPass] at h; exact h.2
    · simp [Board.isLegalToRedouble, Board.isCubeTakeOrPass] at h; exact h.1.2
    · simp [Board.isToAcceptResign] at h; exact h.2
  rw [← key p d hp, ← key q e hq]

/-- **C22**: rolling (or doubling) and moving are never both allowed; taking/passing excludes rolling,
moving and doubling; answering a resignation excludes rolling and moving. -/
theorem C22_exclusive (b : Board) (p q : Int) :
    ¬ (allowed b p .roll ∧ allowed b q .move) ∧
    ¬ (allowed b p .double ∧ allowed b q .move) ∧
    ¬ (allowed b p .takeOrPass ∧ (allowed b q .roll ∨ allowed b q .move ∨ allowed b q .double)) ∧
    ¬ (allowed b p .answerResign ∧ (allowed b q .roll ∨ allowed b q .move)) := by
  refine ⟨?_, ?_, ?_, ?_⟩
  · rintro ⟨h1, h2⟩
    simp [allowed, Board.isLegalToRoll, Board.isLegalToMove] at h1 h2; grind
  · rintro ⟨h1, h2⟩
    have := C20_never b p h1
    simp [allowed, Board.isLegalToMove] at h2; grind
  · rintro ⟨h1, h2 | h2 | h2⟩
    · simp [allowed, Board.isLegalToRoll, Board.isCubeTakeOrPass] at h1 h2; grind
    · simp [allowed, Board.isLegalToMove, Board.isCubeTakeOrPass] at h1 h2; grind
    · have := C20_never b q h2
      simp [allowed, Board.isCubeTakeOrPass] at h1; grind
  · rintro ⟨h1, h2 | h2⟩
    · simp [allowed, Board.isLegalToRoll, Board.isToAcceptResign, RESIGN_NONE, RESIGN_SINGLE,
        RESIGN_GAMMON, RESIGN_BACKGAMMON] at h1 h2; grind
    · simp [allowed, Board.isLegalToMove, Board.isToAcceptResign, RESIGN_NONE, RESIGN_SINGLE,
        RESIGN_GAMMON, RESIGN_BACKGAMMON] at h1 h2; grind

example : allowed { gameState := ON_GOING } 0 .roll ∧ allowed { gameState := ON_GOING } 0 .double ∧
    allowed { gameState := ON_GOING, rolled := (3, 1) } 0 .move ∧
    allowed { gameState := ON_GOING, doubled := true, onInnerAction := 1 } 1 .takeOrPass ∧
    allowed { gameState := ON_GOING, resignOffer := 2, onInnerAction := 1 } 1 .answerResign := by
  simp only [allowed]; decide

end Bglib
