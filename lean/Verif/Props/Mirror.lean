import Verif.Lemmas.Mirror
import Verif.Props.Board
import Verif.Props.GnubgId
import Verif.Props.Score
/-
C101: a game is the same seen from either side of the table.
-/
namespace Bglib
open Spec

theorem mirrored_fits {b : Board} (h : Fits b) (hs : Seated b) : Fits (mirrored b) := by
  have h' := mirrored_seated hs
  obtain ⟨a1, a2, a3, a4, a5, a6, a7, a8, a9, a10, a11, a12, a13⟩ := h
  exact ⟨a2, a1, a3, by have := h'.owner; omega, h'.turn, a6, h'.inner, a8, a9, a10, a11, a13, a12⟩

/-- The position ID tells the chequers of the player whose turn it is last. -/
theorem encode_pid {b : Board} (h : Fits b) {pid mid : Text} (he : gnubgEncode b = .ok (pid, mid)) :
    pid = encodePosition (if b.onAction = 0 then (b.position.2, b.position.1) else b.position) := by
  obtain ⟨hl, hr⟩ := matchOf_read b h
  have hact : (readField (matchOf b) .onAction : Int) = b.onAction := by
    have := h.onAction
    rw [hr]; simp only [lastAssigned, boardFields, reduceCtorEq, if_true, if_false]; omega
  unfold gnubgEncode at he
  simp only [hact] at he
  rcases h.onAction with c | c
  · rw [if_pos (by rw [c]; rfl)] at he
    rw [if_pos c]
    exact (Prod.mk.inj (Except.ok.inj he)).1.symm
  · rw [if_neg (by rw [c]; decide), if_pos (by rw [c]; rfl)] at he
    rw [if_neg (by omega)]
    exact (Prod.mk.inj (Except.ok.inj he)).1.symm

/-- **C101** What `flip` does is to look from the other side; doing it twice changes nothing. -/
theorem C101_flip (b : Board) (h : Seated b) :
    b.flip = ⟨mirrored b, none⟩ ∧ mirrored (mirrored b) = b ∧ Seated (mirrored b) :=
  ⟨mirrored_flip h, mirrored_mirrored h, mirrored_seated h⟩

/-- A game to look at. -/
def exAcross : Board :=
  { gameState := ON_GOING, onAction := 1, onInnerAction := 1, cubeOwner := 0, cube := 1, matchLength := 7,
    score := (1, 3), rolled := (3, 1) }

example : Seated exAcross ∧ mirrored exAcross ≠ exAcross := ⟨⟨by decide, by decide, by decide⟩, by decide⟩

/-- **C101** All questions about chequers have the same answers. -/
theorem C101_questions (b : Board) (h : Seated b) (n die : Int) :
    (mirrored b).hasChequerToMove n = b.hasChequerToMove n ∧
    (mirrored b).isOpenToLand n = b.isOpenToLand n ∧
    (mirrored b).isHittingToLand n = b.isHittingToLand n ∧
    (mirrored b).isOkToBearoffFrom n die = b.isOkToBearoffFrom n die ∧
    (mirrored b).findSrcOfBearoffWith die = b.findSrcOfBearoffWith die :=
  ⟨mirrored_hasChequer h.turn n, mirrored_open h.turn n, mirrored_hitting h.turn n, mirrored_bearoff h.turn n die,
    mirrored_findSrc h.turn die⟩

example : exAcross.hasChequerToMove 5 = .ok true ∧ exAcross.isOpenToLand 4 = .ok true := by decide

/-- **C101** All suggestions are the same: single movements from a source or to a destination, chains of movements,
points made and movements taken back; what the question leaves on the board is the same, too. -/
theorem C101_suggestions (f : Factory) (h : Seated f.board) (src dest : Int) :
    Factory.fromSource (mirrored f.board) f.avail src = Factory.fromSource f.board f.avail src ∧
    Factory.fromDest (mirrored f.board) f.avail dest = Factory.fromDest f.board f.avail dest ∧
    Factory.multiplePms (mirrored f.board) f.avail src dest =
      mirroredAsked (Factory.multiplePms f.board f.avail src dest) ∧
    (mirroredFactory f).makingPoint dest = mirroredAsked (f.makingPoint dest) ∧
    (mirroredFactory f).multipleUndoes src dest = mirroredAsked (f.multipleUndoes src dest) ∧
    (mirroredFactory f).isLegalToPickupDice = mirroredAsked f.isLegalToPickupDice :=
  ⟨mirrored_fromSource h.turn _ _, mirrored_fromDest h.turn _ _, mirrored_multiple h.turn _ _ _,
    mirrored_making f h.turn dest, mirrored_undoLoop _ _ _ _ h.turn _ _, mirrored_pickup f h.turn⟩

example : Factory.fromSource exAcross (Avail.ofRoll (3, 1)) 7 = .ok (some ⟨3, 7, 4, false⟩) ∧
    (Factory.new exAcross).isLegalToPickupDice.res = .ok false := by decide +kernel

/-- **C101** The movements of a turn, whichever they are, are accepted or refused alike, and the boards, the dice left
and the recorded moves are the same afterwards. -/
theorem C101_turn (b : Board) (h : Seated b) (pms : List PartialMove) :
    (Factory.new (mirrored b)).addAll pms =
      ⟨mirroredFactory ((Factory.new b).addAll pms).st, ((Factory.new b).addAll pms).err⟩ :=
  mirrored_addAll (Factory.new b) h.turn pms

example : ((Factory.new exAcross).addAll [⟨3, 7, 4, false⟩, ⟨1, 5, 4, false⟩]).err = none ∧
    ((Factory.new exAcross).addAll [⟨3, 7, 4, false⟩, ⟨3, 7, 4, false⟩]).err ≠ none := by decide +kernel

/-- The result of an action seen from the other side. -/
def mirroredStep (s : Step Board) : Step Board := ⟨mirrored s.st, s.err⟩

/-- **C101** (what holds) Every call of an editor, seen from the other side, does the same, and fails in the same way.
Missing: a double at the score where the points and the cube are just the length of the match (see
`C101_false_double`). -/
theorem C101_action_partial (b : Board) (h : Seated b) (e : Edit) (hd : ∀ w, e = .double w → ¬ AtLimit b w) :
    (mirroredEdit e).run (mirrored b) = mirroredStep (e.run b) := by
  have hi := h.inner
  cases e with
  | set a => cases a <;> rfl
  | setExtra n => rfl
  | flip =>
    show (mirrored b).flip = mirroredStep b.flip
    rw [mirrored_flip h, mirrored_flip (mirrored_seated h)]
    rfl
  | move pm =>
    simp only [mirroredEdit, Edit.run]
    rw [mirrored_move h.turn]
    cases b.makePartialMove pm <;> rfl
  | double w =>
    simp only [mirroredEdit, Edit.run]
    have hl := hd w rfl
    unfold Board.double
    rw [mirrored_legalDouble h w hl]
    cases c : b.isLegalToDouble w with
    | error e => rfl
    | ok x =>
      cases x with
      | false => rfl
      | true =>
        have hw := (C20_never b w c).2.2.2.2.2.2.1
        rcases hw with rfl | rfl <;> rfl
  | take w =>
    simp only [mirroredEdit, Edit.run, Board.take]
    rw [mirrored_takeOrPass h]
    split <;> rfl
  | drop w =>
    simp only [mirroredEdit, Edit.run, Board.drop]
    rw [mirrored_takeOrPass h]
    split
    · rename_i c
      have hw : w = 0 ∨ w = 1 := by
        simp only [Board.isCubeTakeOrPass, Bool.and_eq_true, decide_eq_true_eq] at c
        rw [← c.2]; exact hi
      have hs := mirrored_score (b := b) hw 0 (2 ^ b.cube)
      rw [show (mirrored b).cube = b.cube from rfl, hs]
      cases b.newScore w 0 (2 ^ b.cube) <;> rfl
    · rfl
  | offerResign w n =>
    simp only [mirroredEdit, Edit.run, Board.offerResign]
    rw [mirrored_toResign h]
    split
    · rename_i c
      have hw : w = 0 ∨ w = 1 := by
        simp only [Board.isLegalToResign, Bool.and_eq_true, decide_eq_true_eq] at c
        rw [← c.2]; exact hi
      split
      · rcases hw with rfl | rfl <;> rfl
      · rfl
    · rfl
  | acceptResign w =>
    simp only [mirroredEdit, Edit.run, Board.acceptResign]
    rw [mirrored_toAccept h]
    split
    · rename_i c
      have hw : w = 0 ∨ w = 1 := by
        simp only [Board.isToAcceptResign, Bool.and_eq_true, decide_eq_true_eq] at c
        rw [← c.2]; exact hi
      have hs := mirrored_score (b := b) hw (b.resignOffer * 2 ^ b.cube) 0
      rw [show (mirrored b).cube = b.cube from rfl, show (mirrored b).resignOffer = b.resignOffer from rfl, hs]
      cases b.newScore w (b.resignOffer * 2 ^ b.cube) 0 <;> rfl
    · rfl
  | rejectResign w =>
    simp only [mirroredEdit, Edit.run, Board.rejectResign]
    rw [mirrored_toAccept h]
    split
    · rename_i c
      have hw : w = 0 ∨ w = 1 := by
        simp only [Board.isToAcceptResign, Bool.and_eq_true, decide_eq_true_eq] at c
        rw [← c.2]; exact hi
      rcases hw with rfl | rfl <;> rfl
    · rfl
  | pickupDice =>
    obtain ⟨h1, h2, -⟩ := h
    simp only [mirroredEdit, Edit.run, Board.pickupDice, mirrored]
    rcases h1 with h1 | h1 <;> rcases h2 with h2 | h2 <;>
      simp [h1, h2, across, getOpp, YOU, HIM, mirroredStep, mirrored]

example : ¬ AtLimit exAcross 1 ∧ (Edit.pickupDice.run exAcross).err = none :=
  ⟨fun h => absurd h.score (by decide), by decide⟩

/-- **C101** is false of a double at that score, whoever looks: you may double, the other player may not. -/
theorem C101_false_double (b : Board) (h : Seated b) (w : Int) (hl : AtLimit b w) :
    (mirroredEdit (.double w)).run (mirrored b) ≠ mirroredStep ((Edit.double w).run b) := by
  have e1 := limit_legal hl h
  have e2 := limit_legal (mirrored_limit hl h) (mirrored_seated h)
  have hw : w = 0 ∨ w = 1 := by have := h.turn; rw [hl.turn] at this; exact this
  intro e
  have e3 := congrArg Step.err e
  simp only [mirroredEdit, Edit.run, mirroredStep, Board.double, e1, e2] at e3
  rcases hw with rfl | rfl
  · exact absurd e3 (by simp [across, getOpp, YOU, HIM])
  · exact absurd e3 (by simp [across, getOpp, YOU, HIM])

/-- A game at that score: three points of five, and a cube of two. -/
def exLimit : Board :=
  { gameState := ON_GOING, matchLength := 5, score := (3, 0), cube := 1, cubeOwner := 0 }

example : Seated exLimit ∧ AtLimit exLimit 0 ∧ ((Edit.double 0).run exLimit).err = none :=
  ⟨⟨by decide, by decide, by decide⟩, ⟨by decide, by decide, by decide, by decide, by decide, by decide, by decide,
    by decide⟩, by decide⟩

/-- No double of the history is made at the limit. -/
def Spec.neverAtLimit (b : Board) : List Edit → Prop
  | [] => True
  | e :: es => (∀ w, e = .double w → ¬ AtLimit b w) ∧ neverAtLimit (e.run b).st es

/-- **C101** (what holds) The same game is played from both sides: after any number of calls, accepted or refused, the
boards are those seen from the other side.  Missing: doubles at the limit. -/
theorem C101_history_partial (b : Board) (h : Seated b) (es : List Edit) (hk : ∀ e ∈ es, keepsSeats e)
    (hd : neverAtLimit b es) :
    playEdits (mirrored b) (es.map mirroredEdit) = mirrored (playEdits b es) := by
  induction es generalizing b with
  | nil => rfl
  | cons e es ih =>
    simp only [List.map_cons, playEdits]
    rw [C101_action_partial b h e hd.1]
    exact ih _ (keepsSeats_run h (hk e (by simp))) (fun x hx => hk x (by simp [hx])) hd.2

example : neverAtLimit {} [.set (.gameState 1), .double 0, .take 1, .pickupDice] ∧
    playEdits {} [.set (.gameState 1), .double 0, .take 1, .pickupDice] ≠ {} :=
  ⟨⟨fun w h => (by cases h), fun w h => (by cases h; exact fun hl => absurd hl.isMatch (by decide)),
    fun w h => (by cases h), fun w h => (by cases h), trivial⟩, by decide⟩

/-- **C101** The position ID is the same, whoever looks, and decoding the match ID of the other side gives the board seen
from there.  (The condition is that of C06.) -/
theorem C101_ids (b b0 : Board) (h : Fits b) (hs : Seated b)
    (hm : ¬ (b.gameState = ON_GOING ∧ b.matchLength = 0 ∧ (0 < b.score.1 ∨ 0 < b.score.2))) :
    ∃ pid mid mid', gnubgEncode b = .ok (pid, mid) ∧ gnubgEncode (mirrored b) = .ok (pid, mid') ∧
      gnubgDecode b0 pid mid = ⟨b, none⟩ ∧ gnubgDecode b0 pid mid' = ⟨mirrored b, none⟩ ∧ mid ≠ mid' := by
  have h' : Fits (mirrored b) := mirrored_fits h hs
  obtain ⟨pid, mid, e1, e2⟩ := C06_roundtrip_partial b b0 h hm
  obtain ⟨pid', mid', e3, e4⟩ := C06_roundtrip_partial (mirrored b) b0 h' (by
    rintro ⟨x, y, z⟩; exact hm ⟨x, y, z.symm⟩)
  have hp : pid = pid' := by
    have f1 := encode_pid h e1
    have f2 := encode_pid h' e3
    rw [f1, f2]
    rcases h.onAction with c | c <;> simp [mirrored, across, c]
  subst hp
  refine ⟨pid, mid, mid', e1, e3, e2, e4, ?_⟩
  rintro rfl
  rw [e2] at e4
  have := congrArg (fun r => r.board.onAction) e4
  simp only [mirrored, across] at this
  rcases h.onAction with c | c <;> simp [c] at this

example : Fits exAcross ∧ ¬ (exAcross.gameState = ON_GOING ∧ exAcross.matchLength = 0) := by
  refine ⟨?_, by decide⟩
  constructor <;> first | exact row_of_mem (by decide) (by decide) | decide

end Bglib
