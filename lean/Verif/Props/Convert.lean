import Verif.Props.GnubgId
import Verif.Props.Xgid
import Verif.Props.Fibs
import Verif.Model.Regex
/-
C80: an XGID or a FIBS board line that is read into a new editor and written again as GNU Backgammon IDs
(position ID and match ID) describes the same board; reading the IDs gives it back.
Composition of C02, C06, C07, C09 and C43.
-/
namespace Bglib
open Spec

/-- Values of an XGID that also have a place in a match ID (4 bits for the cube, 3 for a die, 15 for the
length and the points). -/
structure Spec.IdSized (b : Board) : Prop where
  cube : b.cube < 16
  die1 : b.rolled.1 < 8
  die2 : b.rolled.2 < 8
  length : b.matchLength < 32768
  score1 : 0 ≤ b.score.1 ∧ b.score.1 < 32768
  score2 : 0 ≤ b.score.2 ∧ b.score.2 < 32768

/-- The player on action comes last in a position ID. -/
def Spec.idOrder (onAction : Int) (p : List Int × List Int) : List Int × List Int :=
  if onAction = 0 then (p.2, p.1) else p

/-- A game in progress without double or resignation, otherwise as `b`. -/
def Spec.inProgress (b : Board) : Board :=
  { b with gameState := ON_GOING, onInnerAction := b.onAction, doubled := false, resignOffer := 0 }

private theorem fits_inProgress (b : Board) (h : XgOk b) (hs : IdSized b) : Fits (inProgress b) where
  row1 := h.row1
  row2 := h.row2
  cube := hs.cube
  owner := by have := h.owner; show 0 ≤ b.cubeOwner ∧ b.cubeOwner < 4; omega
  onAction := h.turn
  gameState := by show (0:Int) ≤ ON_GOING ∧ ON_GOING < 8; decide
  inner := h.turn
  resign := by show (0:Int) ≤ 0 ∧ (0:Int) < 4; decide
  die1 := ⟨h.die1.1, hs.die1⟩
  die2 := ⟨h.die2.1, hs.die2⟩
  length := ⟨h.length, hs.length⟩
  score1 := hs.score1
  score2 := hs.score2

private theorem encode_pid (b : Board) (h : Fits b) {pid mid : Text} (he : gnubgEncode b = .ok (pid, mid)) :
    pid = encodePosition (idOrder b.onAction b.position) := by
  have hact : (readField (matchOf b) .onAction : Int) = b.onAction := by
    have := h.onAction
    rw [(matchOf_read b h).2]; simp only [lastAssigned, boardFields, reduceCtorEq, if_true, if_false]; omega
  unfold gnubgEncode at he
  simp only [hact] at he
  rcases h.onAction with h0 | h0
  · rw [if_pos (show b.onAction = YOU from h0)] at he
    rw [← (Prod.mk.inj (Except.ok.inj he)).1, idOrder, if_pos h0]
  · rw [if_neg (by rw [h0]; decide), if_pos (show b.onAction = HIM from h0)] at he
    rw [← (Prod.mk.inj (Except.ok.inj he)).1, idOrder, if_neg (by rw [h0]; decide)]

/-- **C80** (what holds) An XGID read into a new editor and written as IDs: both steps succeed, and reading
the IDs, into whatever editor, gives the board the XGID was made of.  Missing: money games in which points
are recorded (see `C80_false_money`) and editors used before (see `C80_false_stale`). -/
theorem C80_xgid_partial (b b0 : Board) (h : XgOk b) (hs : IdSized b) (cubeMax : Text) (hc : ':' ∉ cubeMax)
    (hm : b.matchLength = 0 → b.score = (0, 0)) :
    ∃ r pid mid, xgDecode {} (xgid b cubeMax) = ⟨r, none⟩ ∧ gnubgEncode r = .ok (pid, mid) ∧
      gnubgDecode b0 pid mid = ⟨inProgress b, none⟩ := by
  have hf := fits_inProgress b h hs
  obtain ⟨pid, mid, he, hd⟩ := C06_roundtrip_partial (inProgress b) b0 hf (by
    rintro ⟨-, h2, h3⟩
    have := hm h2
    change 0 < b.score.1 ∨ 0 < b.score.2 at h3
    rw [this] at h3
    omega)
  exact ⟨inProgress b, pid, mid, C07_decode b {} h cubeMax hc, he, hd⟩

/-- **C80** Under the rules of backgammon (at most 15 chequers a side) the position ID is the standard one of
the board; for 6, 14 or 22 chequers in all its last two letters `AA` are missing (compare C02). -/
theorem C80_xgid_position (b : Board) (h : XgOk b) (hs : IdSized b) (cubeMax : Text) (hc : ':' ∉ cubeMax)
    (h15 : total b.position.1 ≤ 15) (h15' : total b.position.2 ≤ 15) :
    ∃ r pid mid, xgDecode {} (xgid b cubeMax) = ⟨r, none⟩ ∧ gnubgEncode r = .ok (pid, mid) ∧
      (pid = positionId (idOrder b.onAction b.position) ∨
        ((total b.position.1 + total b.position.2 = 6 ∨ total b.position.1 + total b.position.2 = 14 ∨
          total b.position.1 + total b.position.2 = 22) ∧
          pid ++ ['A', 'A'] = positionId (idOrder b.onAction b.position))) := by
  have hf := fits_inProgress b h hs
  have hex : ∃ pid mid, gnubgEncode (inProgress b) = .ok (pid, mid) := by
    by_cases hm : (inProgress b).gameState = ON_GOING ∧ (inProgress b).matchLength = 0 ∧
        (0 < (inProgress b).score.1 ∨ 0 < (inProgress b).score.2)
    · obtain ⟨pid, mid, he, -⟩ := C06_money_false (inProgress b) {} hf hm.1 hm.2.1 hm.2.2
      exact ⟨pid, mid, he⟩
    · obtain ⟨pid, mid, he, -⟩ := C06_roundtrip_partial (inProgress b) {} hf hm
      exact ⟨pid, mid, he⟩
  obtain ⟨pid, mid, he⟩ := hex
  refine ⟨inProgress b, pid, mid, C07_decode b {} h cubeMax hc, he, ?_⟩
  have hp := encode_pid _ hf he
  change pid = encodePosition (idOrder b.onAction b.position) at hp
  rw [hp]
  unfold idOrder
  split
  · rcases C02_standard _ _ h.row2 h.row1 h15' h15 with e | ⟨e, e'⟩
    · exact Or.inl e
    · exact Or.inr ⟨by omega, e'⟩
  · exact C02_standard _ _ h.row1 h.row2 h15 h15'

/-- **C80** Different boards give different IDs: two XGIDs that are turned into the same pair of IDs describe
the same position, cube, turn, dice, score and match. -/
theorem C80_xgid_inj (b b' : Board) (h : XgOk b) (h' : XgOk b') (hs : IdSized b) (hs' : IdSized b')
    (m m' : Text) (hc : ':' ∉ m) (hc' : ':' ∉ m')
    (hm : b.matchLength = 0 → b.score = (0, 0)) (hm' : b'.matchLength = 0 → b'.score = (0, 0))
    (heq : gnubgEncode (xgDecode {} (xgid b m)).board = gnubgEncode (xgDecode {} (xgid b' m')).board) :
    inProgress b = inProgress b' := by
  obtain ⟨r, pid, mid, e1, e2, e3⟩ := C80_xgid_partial b {} h hs m hc hm
  obtain ⟨r', pid', mid', e1', e2', e3'⟩ := C80_xgid_partial b' {} h' hs' m' hc' hm'
  rw [e1, e1'] at heq
  change gnubgEncode r = gnubgEncode r' at heq
  rw [e2, e2'] at heq
  obtain ⟨p1, p2⟩ := Prod.mk.inj (Except.ok.inj heq)
  rw [p1, p2, e3'] at e3
  exact (DecodeResult.mk.inj e3).1.symm

example : XgOk exXgBoard ∧ IdSized exXgBoard ∧ (exXgBoard.matchLength = 0 → exXgBoard.score = (0, 0)) ∧
    total exXgBoard.position.1 ≤ 15 ∧ total exXgBoard.position.2 ≤ 15 :=
  ⟨exXgBoard_ok, ⟨by decide, by decide, by decide, by decide, by decide, by decide⟩, by decide, by decide,
    by decide⟩

/-- **C80** is false of money games with points (a money session, or the sum of past games): the XGID is read
and the IDs are written without complaint, but the IDs cannot be read again. -/
theorem C80_false_money (b b0 : Board) (h : XgOk b) (hs : IdSized b) (cubeMax : Text) (hc : ':' ∉ cubeMax)
    (hm : b.matchLength = 0) (hp : 0 < b.score.1 ∨ 0 < b.score.2) :
    ∃ r pid mid, xgDecode {} (xgid b cubeMax) = ⟨r, none⟩ ∧ gnubgEncode r = .ok (pid, mid) ∧
      (gnubgDecode b0 pid mid).err = some .inconsistentData := by
  obtain ⟨pid, mid, he, hd⟩ := C06_money_false (inProgress b) b0 (fits_inProgress b h hs) rfl hm hp
  exact ⟨inProgress b, pid, mid, C07_decode b {} h cubeMax hc, he, hd⟩

/-- The example board, in a money session. -/
def exXgMoney : Board := { exXgBoard with matchLength := 0 }

example : XgOk exXgMoney ∧ IdSized exXgMoney ∧ exXgMoney.matchLength = 0 ∧ 0 < exXgMoney.score.1 :=
  ⟨{ exXgBoard_ok with length := by decide, money := by decide },
    ⟨by decide, by decide, by decide, by decide, by decide, by decide⟩, by decide, by decide⟩

/-- **C80** is false of an editor that was used before: the XGID says nothing of a double or a resignation,
but those of the board edited before are kept and come out in the match ID. -/
theorem C80_false_stale : ∃ b0 pid mid,
    gnubgEncode (xgDecode b0 (xgid exXgBoard t!"10")).board = .ok (pid, mid) ∧
    (gnubgDecode {} pid mid).board.doubled = true ∧ (gnubgDecode {} pid mid).board.resignOffer = 2 ∧
    gnubgEncode (xgDecode {} (xgid exXgBoard t!"10")).board ≠ .ok (pid, mid) :=
  ⟨{ doubled := true, resignOffer := 2 }, t!"sM/BATCwZ/ABMA", t!"cFmgAEAAGAAA", by decide +kernel⟩

/-! ### FIBS lines -/

/-- Numbers of a FIBS line (`nums` are the fields 3 to 52) of a game in which it is your turn and which has a
place in a match ID: cube `2 ^ k`. -/
structure Spec.FibsSized (nums : List Int) (k : Nat) : Prop where
  fields : nums.length = 50
  colour : fibsNum nums 41 = 1 ∨ fibsNum nums 41 = -1
  direction : fibsNum nums 42 = 1 ∨ fibsNum nums 42 = -1
  turn : fibsNum nums 32 = fibsNum nums 41
  cube : fibsNum nums 37 = ((2 ^ k : Nat) : Int) ∧ k < 16
  may1 : fibsNum nums 38 = 0 ∨ fibsNum nums 38 = 1
  may2 : fibsNum nums 39 = 0 ∨ fibsNum nums 39 = 1
  die1 : 0 ≤ fibsNum nums 33 ∧ fibsNum nums 33 < 8
  die2 : 0 ≤ fibsNum nums 34 ∧ fibsNum nums 34 < 8
  length : 0 ≤ fibsNum nums 3 ∧ fibsNum nums 3 < 32768
  score1 : 0 ≤ fibsNum nums 4 ∧ fibsNum nums 4 < 32768
  score2 : 0 ≤ fibsNum nums 5 ∧ fibsNum nums 5 < 32768

private theorem fibsCount_nonneg (c e : Int) : 0 ≤ fibsCount c e := by
  unfold fibsCount; split <;> split <;> omega

/-- **C80** (what holds) A FIBS line of a match (or of an unlimited game without points), on your turn, read
into a new editor and written as IDs: reading the IDs gives the board the line states, chequer by chequer and
field by field.  Missing: the opponent's turn, which cannot be read at all (C43). -/
theorem C80_fibs_partial (b0 : Board) (you him : Text) (nums : List Int) (k : Nat)
    (h1 : ':' ∉ you) (h2 : ':' ∉ him) (h : FibsSized nums k)
    (hm : fibsNum nums 3 = 0 → fibsNum nums 4 = 0 ∧ fibsNum nums 5 = 0) :
    ∃ r pid mid b, fibsDecode {} (fibsLine you him nums) = some ⟨r, none⟩ ∧
      gnubgEncode r = .ok (pid, mid) ∧ gnubgDecode b0 pid mid = ⟨b, none⟩ ∧
      (∀ p < 25,
        cnt b.position.1 p =
          fibsCount (fibsNum nums 41) (fibsNum nums (6 + fibsPlace (fibsNum nums 42) p)) ∧
        cnt b.position.2 p =
          fibsCount (- fibsNum nums 41) (fibsNum nums (6 + fibsPlace (- fibsNum nums 42) p))) ∧
      b.cube = k ∧ b.cubeOwner = fibsOwner (fibsNum nums 38) (fibsNum nums 39) ∧
      b.onAction = 0 ∧ b.onInnerAction = (if fibsNum nums 40 = 0 then 0 else 1) ∧
      (b.doubled = true ↔ fibsNum nums 40 ≠ 0) ∧
      b.rolled = (fibsNum nums 33, fibsNum nums 34) ∧
      b.matchLength = fibsNum nums 3 ∧ b.score = (fibsNum nums 4, fibsNum nums 5) := by
  obtain ⟨r, hr, q1, q2, q3, q4, q5, q6, q7, q8, q9, q10, q11⟩ :=
    C43_your_turn_partial {} you him nums k h1 h2 h.fields h.cube.1 h.may1 h.may2 h.turn
  obtain ⟨r', hr', l1, l2, hpos⟩ := C09_position {} you him nums h1 h2 h.fields h.colour h.direction
  rw [hr] at hr'
  have hr' := Option.some.inj hr'
  subst hr'
  change r.position.1.length = 25 at l1
  change r.position.2.length = 25 at l2
  have row1 : Row r.position.1 := ⟨l1, fun p => by
    by_cases hp : p < 25
    · rw [(hpos p hp).1]; exact fibsCount_nonneg _ _
    · rw [cnt, List.getD_eq_getElem?_getD, List.getElem?_eq_none (by omega)]; exact Int.le_refl 0⟩
  have row2 : Row r.position.2 := ⟨l2, fun p => by
    by_cases hp : p < 25
    · rw [(hpos p hp).2]; exact fibsCount_nonneg _ _
    · rw [cnt, List.getD_eq_getElem?_getD, List.getElem?_eq_none (by omega)]; exact Int.le_refl 0⟩
  have hf : Fits r := {
    row1 := row1, row2 := row2, cube := by rw [q1]; exact h.cube.2
    owner := by rw [q2]; unfold fibsOwner; repeat' split
                all_goals decide
    onAction := Or.inl q4
    gameState := by rw [q5]; decide
    inner := by rw [q7]; split <;> simp
    resign := by rw [q9]; decide
    die1 := by rw [q6]; exact h.die1
    die2 := by rw [q6]; exact h.die2
    length := by rw [q10]; exact h.length
    score1 := by rw [q11]; exact h.score1
    score2 := by rw [q11]; exact h.score2 }
  obtain ⟨pid, mid, he, hd⟩ := C06_roundtrip_partial r b0 hf (by
    rintro ⟨-, e2, e3⟩
    rw [q10] at e2
    rw [q11] at e3
    have := hm e2
    have e3' : 0 < fibsNum nums 4 ∨ 0 < fibsNum nums 5 := e3
    omega)
  refine ⟨r, pid, mid, r, hr, he, hd, hpos, q1, q2, q4, q7, ?_, q6, q10, q11⟩
  rw [q8]
  split <;> simp [*]

example : FibsSized exFibs 0 ∧ fibsNum exFibs 3 = 3 :=
  ⟨⟨by decide, by decide, by decide, by decide, by decide, by decide, by decide, by decide, by decide,
    by decide, by decide, by decide⟩, by decide⟩

end Bglib
