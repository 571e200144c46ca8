import Verif.Spec.Mirror
import Verif.Model.MoveFactory
/-
Helper lemmas for C101: what the code does on a board and on the board seen from the other side.
-/
namespace Bglib
open Spec

theorem across_across {x : Int} (h : x = 0 ∨ x = 1 ∨ x = 3) : across (across x) = x := by
  rcases h with rfl | rfl | rfl <;> rfl

theorem across_inj {x y : Int} (hx : x = 0 ∨ x = 1) : across x = across y ↔ x = y := by
  unfold across; rcases hx with rfl | rfl <;> (repeat' split) <;> omega

theorem mirrored_seated {b : Board} (h : Seated b) : Seated (mirrored b) := by
  obtain ⟨h1, h2, h3⟩ := h
  constructor <;> simp only [mirrored, across]
  · rcases h1 with h | h <;> simp [h]
  · rcases h2 with h | h <;> simp [h]
  · rcases h3 with h | h | h <;> simp [h]

theorem mirrored_mirrored {b : Board} (h : Seated b) : mirrored (mirrored b) = b := by
  obtain ⟨h1, h2, h3⟩ := h
  have e1 := across_across (x := b.onAction) (by omega)
  have e2 := across_across (x := b.onInnerAction) (by omega)
  have e3 := across_across h3
  simp only [mirrored, e1, e2, e3]

theorem mirrored_flip {b : Board} (h : Seated b) : b.flip = ⟨mirrored b, none⟩ := by
  obtain ⟨h1, h2, h3⟩ := h
  rcases h1 with h1 | h1 <;> rcases h2 with h2 | h2 <;> rcases h3 with h3 | h3 | h3 <;>
    simp [Board.flip, mirrored, across, h1, h2, h3, YOU, HIM, CENTER]

theorem mirrored_rows {b : Board} (h : b.onAction = 0 ∨ b.onAction = 1) : (mirrored b).rows = b.rows := by
  unfold Board.rows mirrored across
  rcases h with h | h <;> simp [h, YOU, HIM]

section
variable {b : Board} (h : b.onAction = 0 ∨ b.onAction = 1)
include h

theorem mirrored_hasChequer (n : Int) : (mirrored b).hasChequerToMove n = b.hasChequerToMove n := by
  unfold Board.hasChequerToMove; rw [mirrored_rows h]

theorem mirrored_open (n : Int) : (mirrored b).isOpenToLand n = b.isOpenToLand n := by
  unfold Board.isOpenToLand; rw [mirrored_rows h]

theorem mirrored_hitting (n : Int) : (mirrored b).isHittingToLand n = b.isHittingToLand n := by
  unfold Board.isHittingToLand; rw [mirrored_rows h]

theorem mirrored_any (ns : List Int) : (mirrored b).anyChequer ns = b.anyChequer ns := by
  induction ns with
  | nil => rfl
  | cons n ns ih => unfold Board.anyChequer; rw [mirrored_hasChequer h, ih]

theorem mirrored_first (ns : List Int) : (mirrored b).firstChequer ns = b.firstChequer ns := by
  induction ns with
  | nil => rfl
  | cons n ns ih => unfold Board.firstChequer; rw [mirrored_hasChequer h, ih]

theorem mirrored_bearoff (n die : Int) : (mirrored b).isOkToBearoffFrom n die = b.isOkToBearoffFrom n die := by
  unfold Board.isOkToBearoffFrom
  rw [mirrored_any h, mirrored_any h, mirrored_hasChequer h]

theorem mirrored_findSrc (die : Int) : (mirrored b).findSrcOfBearoffWith die = b.findSrcOfBearoffWith die := by
  unfold Board.findSrcOfBearoffWith
  rw [mirrored_any h, mirrored_any h, mirrored_hasChequer h, mirrored_first h]

theorem mirrored_source (src : Int) (fuel : Nat) (a : Avail) :
    Factory.sourceLoop (mirrored b) src fuel a = Factory.sourceLoop b src fuel a := by
  induction fuel generalizing a with
  | zero => rfl
  | succ n ih =>
    unfold Factory.sourceLoop
    simp only [mirrored_hasChequer h, mirrored_bearoff h, mirrored_open h, mirrored_hitting h, ih]

theorem mirrored_fromSource (a : Avail) (src : Int) :
    Factory.fromSource (mirrored b) a src = Factory.fromSource b a src := mirrored_source h src _ a

theorem mirrored_dest (dest : Int) (fuel : Nat) (a : Avail) :
    Factory.destLoop (mirrored b) dest fuel a = Factory.destLoop b dest fuel a := by
  induction fuel generalizing a with
  | zero => rfl
  | succ n ih =>
    unfold Factory.destLoop
    simp only [mirrored_hasChequer h, mirrored_findSrc h, mirrored_open h, mirrored_hitting h, ih]

theorem mirrored_fromDest (a : Avail) (dest : Int) :
    Factory.fromDest (mirrored b) a dest = Factory.fromDest b a dest := mirrored_dest h dest _ a

theorem mirrored_anySingle (a : Avail) (pts : List Int) :
    Factory.anySingle (mirrored b) a pts = Factory.anySingle b a pts := by
  induction pts with
  | nil => rfl
  | cons p ps ih => unfold Factory.anySingle; rw [mirrored_hasChequer h, mirrored_fromSource h, ih]

/-- A movement on the board seen from the other side. -/
theorem mirrored_move (pm : PartialMove) :
    (mirrored b).makePartialMove pm = (b.makePartialMove pm).map mirrored := by
  unfold Board.makePartialMove mirrored across
  rcases h with h | h
  · simp only [h, YOU, HIM]
    cases Board.moveRows pm b.position.1 b.position.2 <;> rfl
  · simp only [h, YOU, HIM]
    cases Board.moveRows pm b.position.2 b.position.1 <;> rfl

end

/-- Movements keep everything but the chequers. -/
theorem move_keeps {b b' : Board} {pm : PartialMove} (h : b.makePartialMove pm = .ok b') :
    b' = { b with position := b'.position } := by
  unfold Board.makePartialMove at h
  split at h
  · cases hm : Board.moveRows pm b.position.1 b.position.2 with
    | error e => simp [hm, bind, Except.bind] at h
    | ok p => simp [hm, bind, Except.bind, pure, Except.pure] at h; subst h; rfl
  · split at h
    · cases hm : Board.moveRows pm b.position.2 b.position.1 with
      | error e => simp [hm, bind, Except.bind] at h
      | ok p => simp [hm, bind, Except.bind, pure, Except.pure] at h; subst h; rfl
    · simp at h

theorem move_turn {b b' : Board} {pm : PartialMove} (h : b.makePartialMove pm = .ok b') :
    b'.onAction = b.onAction := by rw [move_keeps h]

/-- What was asked, seen from the other side. -/
def mirroredAsked {α : Type} (r : Factory.Asked α) : Factory.Asked α := ⟨mirrored r.st, r.res⟩

/-- The factory seen from the other side. -/
abbrev mirroredFactory (f : Factory) : Factory := { f with board := mirrored f.board }

theorem multi_turn (dest : Int) (fuel : Nat) (b : Board) (src : Int) (a : Avail) (mv : List PartialMove) :
    (Factory.multiLoop b dest fuel src a mv).st.onAction = b.onAction := by
  induction fuel generalizing b src a mv with
  | zero => rfl
  | succ n ih =>
    unfold Factory.multiLoop
    split
    · rfl
    · split
      · rfl
      · rfl
      · rename_i pm hp
        split
        · rfl
        · split
          · rfl
          · split
            · rfl
            · rename_i a' ha
              split
              · split
                · rfl
                · rename_i b1 h1
                  have e1 := move_turn h1
                  have e2 := ih b1 pm.dest a' (moveAppend mv pm)
                  generalize Factory.multiLoop b1 dest n pm.dest a' (moveAppend mv pm) = r at e2
                  obtain ⟨b2, r⟩ := r
                  cases r with
                  | error e => exact e2.trans e1
                  | ok r =>
                    simp only
                    cases h3 : b2.makePartialMove pm.inverse with
                    | error e => exact e2.trans e1
                    | ok b3 => exact (move_turn h3).trans (e2.trans e1)
              · exact ih _ _ _ _

theorem mirrored_multi (dest : Int) (fuel : Nat) (b : Board) (h : b.onAction = 0 ∨ b.onAction = 1) (src : Int) (a : Avail)
    (mv : List PartialMove) :
    Factory.multiLoop (mirrored b) dest fuel src a mv = mirroredAsked (Factory.multiLoop b dest fuel src a mv) := by
  induction fuel generalizing b src a mv with
  | zero => rfl
  | succ n ih =>
    unfold Factory.multiLoop
    rw [mirrored_fromSource h]
    split
    · rfl
    · split
      · rfl
      · rfl
      · rename_i pm hp
        split
        · rfl
        · split
          · rfl
          · split
            · rfl
            · rename_i a' ha
              split
              · rw [mirrored_move h]
                cases h1 : b.makePartialMove pm with
                | error e => rfl
                | ok b1 =>
                  have t1 : b1.onAction = 0 ∨ b1.onAction = 1 := by rw [move_turn h1]; exact h
                  have e2 := multi_turn dest n b1 pm.dest a' (moveAppend mv pm)
                  simp only [Except.map]
                  rw [ih b1 t1]
                  generalize Factory.multiLoop b1 dest n pm.dest a' (moveAppend mv pm) = r at e2
                  obtain ⟨b2, r⟩ := r
                  cases r with
                  | error e => rfl
                  | ok r =>
                    have t2 : b2.onAction = 0 ∨ b2.onAction = 1 := by rw [show b2.onAction = _ from e2]; exact t1
                    simp only [mirroredAsked]
                    rw [mirrored_move t2]
                    cases b2.makePartialMove pm.inverse <;> rfl
              · exact ih b h _ _ _

theorem mirrored_multiple {b : Board} (h : b.onAction = 0 ∨ b.onAction = 1) (a : Avail) (src dest : Int) :
    Factory.multiplePms (mirrored b) a src dest = mirroredAsked (Factory.multiplePms b a src dest) :=
  mirrored_multi dest _ b h src a []

theorem mirrored_undoLoop (move : List PartialMove) (dest : Int) (fuel : Nat) (b : Board)
    (h : b.onAction = 0 ∨ b.onAction = 1) (src : Int) (mv : List PartialMove) :
    Factory.undoLoop move dest fuel (mirrored b) src mv = mirroredAsked (Factory.undoLoop move dest fuel b src mv) := by
  induction fuel generalizing b src mv with
  | zero => rfl
  | succ n ih =>
    unfold Factory.undoLoop
    split
    · rfl
    · split
      · rfl
      · rename_i pm hp
        simp only
        split
        · rfl
        · split
          · rw [mirrored_move h]
            cases h1 : b.makePartialMove pm.inverse with
            | error e => rfl
            | ok b1 =>
              have t1 : b1.onAction = 0 ∨ b1.onAction = 1 := by rw [move_turn h1]; exact h
              exact ih b1 t1 _ _
          · rfl

theorem mirrored_append (f : Factory) (h : f.board.onAction = 0 ∨ f.board.onAction = 1) (pm : PartialMove) :
    (mirroredFactory f).append pm = ⟨mirroredFactory (f.append pm).st, (f.append pm).err⟩ := by
  obtain ⟨b, mv, a⟩ := f
  unfold Factory.append mirroredFactory
  simp only at h ⊢
  split
  · rfl
  · rw [mirrored_move h]
    cases b.makePartialMove pm <;> rfl

theorem append_turn (f : Factory) (pm : PartialMove) : (f.append pm).st.board.onAction = f.board.onAction := by
  obtain ⟨b, mv, a⟩ := f
  unfold Factory.append
  simp only
  split
  · rfl
  · cases h1 : b.makePartialMove pm with
    | error e => rfl
    | ok b1 => exact move_turn h1

theorem mirrored_addAll (f : Factory) (h : f.board.onAction = 0 ∨ f.board.onAction = 1) (pms : List PartialMove) :
    (mirroredFactory f).addAll pms = ⟨mirroredFactory (f.addAll pms).st, (f.addAll pms).err⟩ := by
  induction pms generalizing f with
  | nil => rfl
  | cons pm pms ih =>
    unfold Factory.addAll
    rw [mirrored_append f h]
    have t := append_turn f pm
    generalize f.append pm = r at t
    obtain ⟨f', e⟩ := r
    cases e with
    | none => exact ih f' (by rw [show f'.board.onAction = _ from t]; exact h)
    | some e => rfl

theorem addAll_turn (f : Factory) (pms : List PartialMove) : (f.addAll pms).st.board.onAction = f.board.onAction := by
  induction pms generalizing f with
  | nil => rfl
  | cons pm pms ih =>
    unfold Factory.addAll
    have t := append_turn f pm
    generalize f.append pm = r at t
    obtain ⟨f', e⟩ := r
    cases e with
    | none => exact (ih f').trans t
    | some e => exact t

theorem mirrored_new (b : Board) (mv : List PartialMove) (a : Option Avail) :
    Factory.new (mirrored b) mv a = mirroredFactory (Factory.new b mv a) := rfl

theorem mirrored_making (f : Factory) (h : f.board.onAction = 0 ∨ f.board.onAction = 1) (dest : Int) :
    (mirroredFactory f).makingPoint dest = mirroredAsked (f.makingPoint dest) := by
  obtain ⟨b, mv, a⟩ := f
  unfold Factory.makingPoint mirroredFactory
  simp only at h ⊢
  rw [mirrored_fromDest h]
  split
  · rfl
  · rfl
  · rename_i pm hp
    rw [show (mirrored b).rolled = b.rolled from rfl]
    split
    · rfl
    · rw [mirrored_move h]
      cases h1 : b.makePartialMove pm with
      | error e => rfl
      | ok b1 =>
        have t1 : b1.onAction = 0 ∨ b1.onAction = 1 := by rw [move_turn h1]; exact h
        simp only [Except.map]
        rw [mirrored_fromDest t1]
        cases Factory.fromDest b1 a dest with
        | error e => rfl
        | ok r => cases r <;> rfl

theorem doubleTo_turn (a : Avail) (src : Int) (dsts : List Int) (b : Board) :
    (Factory.anyDoubleTo b a src dsts).st.onAction = b.onAction := by
  induction dsts generalizing b with
  | nil => rfl
  | cons d ds ih =>
    unfold Factory.anyDoubleTo
    have t : (Factory.multiplePms b a src d).st.onAction = b.onAction := multi_turn d _ b src a []
    generalize Factory.multiplePms b a src d = r at t
    obtain ⟨b', r⟩ := r
    have go : (match (⟨b', r⟩ : Factory.Asked (Option (List PartialMove))) with
      | ⟨b', .error e⟩ => (⟨b', .error e⟩ : Factory.Asked Bool)
      | ⟨b', .ok (some pms)⟩ =>
        if pms.length = 2 then ⟨b', .ok true⟩ else Factory.anyDoubleTo b' a src ds
      | ⟨b', .ok none⟩ => Factory.anyDoubleTo b' a src ds).st.onAction = b.onAction := by
      cases r with
      | error e => exact t
      | ok r =>
        cases r with
        | none => exact (ih b').trans t
        | some pms =>
          simp only
          split
          · exact t
          · exact (ih b').trans t
    cases ho : b.isOpenToLand d with
    | error e => rfl
    | ok o =>
      cases hh : b.isHittingToLand d with
      | error e =>
        cases o
        · rfl
        · exact go
      | ok x =>
        cases o <;> cases x
        · exact ih b
        all_goals exact go

theorem mirrored_doubleTo (a : Avail) (src : Int) (dsts : List Int) (b : Board) (h : b.onAction = 0 ∨ b.onAction = 1) :
    Factory.anyDoubleTo (mirrored b) a src dsts = mirroredAsked (Factory.anyDoubleTo b a src dsts) := by
  induction dsts generalizing b with
  | nil => rfl
  | cons d ds ih =>
    unfold Factory.anyDoubleTo
    rw [mirrored_open h, mirrored_hitting h, mirrored_multiple h]
    have t : (Factory.multiplePms b a src d).st.onAction = b.onAction := multi_turn d _ b src a []
    generalize Factory.multiplePms b a src d = r at t
    obtain ⟨b', r⟩ := r
    have h' : b'.onAction = 0 ∨ b'.onAction = 1 := by rw [show b'.onAction = _ from t]; exact h
    have go : (match mirroredAsked (⟨b', r⟩ : Factory.Asked (Option (List PartialMove))) with
      | ⟨b', .error e⟩ => (⟨b', .error e⟩ : Factory.Asked Bool)
      | ⟨b', .ok (some pms)⟩ =>
        if pms.length = 2 then ⟨b', .ok true⟩ else Factory.anyDoubleTo b' a src ds
      | ⟨b', .ok none⟩ => Factory.anyDoubleTo b' a src ds) =
      mirroredAsked (match (⟨b', r⟩ : Factory.Asked (Option (List PartialMove))) with
      | ⟨b', .error e⟩ => (⟨b', .error e⟩ : Factory.Asked Bool)
      | ⟨b', .ok (some pms)⟩ =>
        if pms.length = 2 then ⟨b', .ok true⟩ else Factory.anyDoubleTo b' a src ds
      | ⟨b', .ok none⟩ => Factory.anyDoubleTo b' a src ds) := by
      cases r with
      | error e => rfl
      | ok r =>
        cases r with
        | none => exact ih b' h'
        | some pms =>
          simp only [mirroredAsked]
          split
          · rfl
          · exact ih b' h'
    cases ho : b.isOpenToLand d with
    | error e => rfl
    | ok o =>
      cases hh : b.isHittingToLand d with
      | error e =>
        cases o
        · rfl
        · exact go
      | ok x =>
        cases o <;> cases x
        · exact ih b h
        all_goals exact go

theorem mirrored_double (a : Avail) (srcs : List Int) (b : Board) (h : b.onAction = 0 ∨ b.onAction = 1) :
    Factory.anyDouble (mirrored b) a srcs = mirroredAsked (Factory.anyDouble b a srcs) := by
  induction srcs generalizing b with
  | nil => rfl
  | cons s ss ih =>
    unfold Factory.anyDouble
    rw [mirrored_hasChequer h, mirrored_doubleTo a s _ b h]
    cases b.hasChequerToMove s with
    | error e => rfl
    | ok x =>
      cases x with
      | false => exact ih b h
      | true =>
        have t := doubleTo_turn a s (pyRange 0 s) b
        simp only
        generalize Factory.anyDoubleTo b a s (pyRange 0 s) = r at t
        obtain ⟨b', r⟩ := r
        cases r with
        | error e => rfl
        | ok r =>
          cases r with
          | true => rfl
          | false => exact ih b' (by rw [show b'.onAction = _ from t]; exact h)

theorem double_turn (a : Avail) (srcs : List Int) (b : Board) :
    (Factory.anyDouble b a srcs).st.onAction = b.onAction := by
  induction srcs generalizing b with
  | nil => rfl
  | cons s ss ih =>
    unfold Factory.anyDouble
    cases b.hasChequerToMove s with
    | error e => rfl
    | ok x =>
      cases x with
      | false => exact ih b
      | true =>
        have t := doubleTo_turn a s (pyRange 0 s) b
        simp only
        generalize Factory.anyDoubleTo b a s (pyRange 0 s) = r at t
        obtain ⟨b', r⟩ := r
        cases r with
        | error e => exact t
        | ok r =>
          cases r with
          | true => exact t
          | false => exact (ih b').trans t

theorem mirrored_rewound (f : Factory) (h : f.board.onAction = 0 ∨ f.board.onAction = 1) :
    (mirroredFactory f).pickupRewound = mirroredAsked f.pickupRewound := by
  unfold Factory.pickupRewound
  rw [show Factory.new (mirroredFactory f).board (mirroredFactory f).move (some (mirroredFactory f).avail) =
    mirroredFactory (Factory.new f.board f.move (some f.avail)) from rfl]
  rw [show (mirroredFactory f).move = f.move from rfl, show (mirroredFactory f).avail = f.avail from rfl]
  rw [mirrored_addAll (Factory.new f.board f.move (some f.avail)) h]
  have t := addAll_turn (Factory.new f.board f.move (some f.avail)) (f.move.map PartialMove.inverse)
  generalize (Factory.new f.board f.move (some f.avail)).addAll (f.move.map PartialMove.inverse) = r at t
  obtain ⟨mf, e⟩ := r
  have hm : mf.board.onAction = 0 ∨ mf.board.onAction = 1 := by rw [show mf.board.onAction = _ from t]; exact h
  cases e with
  | some e => rfl
  | none =>
    obtain ⟨mb, mm, ma⟩ := mf
    cases mm with
    | cons x xs => rfl
    | nil =>
      simp only [ne_eq, not_true_eq_false, if_false]
      rw [mirrored_double _ _ _ hm]
      have t2 := double_turn ma (pyRange 0 24) mb
      generalize Factory.anyDouble mb ma (pyRange 0 24) = r at t2
      obtain ⟨b, r⟩ := r
      have hb : b.onAction = 0 ∨ b.onAction = 1 := by rw [show b.onAction = _ from t2]; exact hm
      cases r with
      | error e => rfl
      | ok r =>
        cases r with
        | true => rfl
        | false =>
          simp only [mirroredAsked]
          by_cases hy : f.avail.getMax ≠ ma.getMax
          · rw [if_pos hy, if_pos hy]
          · rw [if_neg hy, if_neg hy]
            cases ma.getMax with
            | none => rfl
            | some d =>
              simp only
              rw [mirrored_anySingle hb]
              cases Factory.anySingle b (Avail.ofRoll (d, 0)) (pyRange 0 24) <;> rfl

theorem mirrored_pickup (f : Factory) (h : f.board.onAction = 0 ∨ f.board.onAction = 1) :
    (mirroredFactory f).isLegalToPickupDice = mirroredAsked f.isLegalToPickupDice := by
  have hr := mirrored_rewound f h
  unfold Factory.isLegalToPickupDice
  simp only
  rw [hr, mirrored_anySingle h, show (mirrored f.board).isDoubles = f.board.isDoubles from rfl, mirrored_hasChequer h,
    mirrored_fromSource h]
  by_cases hz : f.board.rolled = (0, 0)
  · rw [if_pos hz, if_pos (show (mirrored f.board).rolled = (0, 0) from hz)]
    rfl
  · rw [if_neg hz, if_neg (show (mirrored f.board).rolled ≠ (0, 0) from hz)]
    split
    · rfl
    · cases f.board.hasChequerToMove BAR with
      | error e => rfl
      | ok y =>
        cases y
        · cases Factory.anySingle f.board f.avail (pyRange 0 24) with
          | error e => rfl
          | ok y =>
            cases y
            · cases f.board.isDoubles with
              | error e => rfl
              | ok z => cases z <;> rfl
            · rfl
        · cases Factory.fromSource f.board f.avail BAR with
          | error e => rfl
          | ok z =>
            cases z with
            | none => rfl
            | some z =>
              cases Factory.anySingle f.board f.avail (pyRange 0 24) with
              | error e => rfl
              | ok y =>
                cases y
                · cases f.board.isDoubles with
                  | error e => rfl
                  | ok z => cases z <;> rfl
                · rfl

/-! ### Actions -/

theorem mirrored_getOpp {w : Int} (h : w = 0 ∨ w = 1) : getOpp w = .ok (across w) := by
  rcases h with rfl | rfl <;> rfl

theorem mirrored_score {b : Board} {w : Int} (h : w = 0 ∨ w = 1) (x y : Int) :
    (mirrored b).newScore (across w) x y = (b.newScore w x y).map fun s => (s.2, s.1) := by
  rcases h with rfl | rfl <;> rfl

theorem mirrored_takeOrPass {b : Board} (h : Seated b) (w : Int) :
    (mirrored b).isCubeTakeOrPass (across w) = b.isCubeTakeOrPass w := by
  unfold Board.isCubeTakeOrPass
  have e1 := across_inj h.inner (y := b.onAction)
  have e2 := across_inj h.inner (y := w)
  simp only [mirrored, ne_eq, e1, e2]

theorem mirrored_toAccept {b : Board} (h : Seated b) (w : Int) :
    (mirrored b).isToAcceptResign (across w) = b.isToAcceptResign w := by
  unfold Board.isToAcceptResign
  have e2 := across_inj h.inner (y := w)
  simp only [mirrored, e2]
  rfl

theorem mirrored_toResign {b : Board} (h : Seated b) (w : Int) :
    (mirrored b).isLegalToResign (across w) = b.isLegalToResign w := by
  unfold Board.isLegalToResign
  have e1 := across_inj h.turn (y := w)
  have e2 := across_inj h.inner (y := w)
  simp only [mirrored, e1, e2]

/-- At the limit you may double, the other player may not. -/
theorem limit_legal {b : Board} {w : Int} (h : AtLimit b w) (hs : Seated b) :
    b.isLegalToDouble w = .ok (decide (w = 0)) := by
  obtain ⟨h1, h2, h3, h4, h5, h6, h7, h8⟩ := h
  unfold turnScore at h1
  unfold Board.isLegalToDouble
  subst h3
  rcases hs.turn with e0 | e0
  · rw [if_pos e0] at h1
    simp [h5, h6, h7, h8, h4, e0, YOU, MONEY_GAME, h2, h1]
  · rw [if_neg (by omega)] at h1
    simp [h5, h6, h7, h8, h4, e0, YOU, HIM, MONEY_GAME, h2, h1]

theorem mirrored_limit {b : Board} {w : Int} (h : AtLimit b w) (hs : Seated b) : AtLimit (mirrored b) (across w) := by
  obtain ⟨h1, h2, h3, h4, h5, h6, h7, h8⟩ := h
  refine ⟨?_, h2, by rw [← h3]; rfl, by rw [← h4]; rfl, h5, h6, h7, h8⟩
  unfold turnScore at h1 ⊢
  simp only [mirrored]
  rcases hs.turn with e | e <;> simp [e, across] at h1 ⊢ <;> exact h1

theorem mirrored_legalDouble {b : Board} (h : Seated b) (w : Int) (hl : ¬ AtLimit b w) :
    (mirrored b).isLegalToDouble (across w) = b.isLegalToDouble w := by
  have e1 := across_inj h.turn (y := w)
  obtain ⟨h1, h2, -⟩ := h
  unfold Board.isLegalToDouble
  simp only [mirrored]
  by_cases c1 : b.rolled = (0, 0)
  · by_cases c2 : b.gameState = ON_GOING
    · simp only [c1, c2, ne_eq, not_true_eq_false, if_false]
      by_cases c3 : b.crawford = true
      · simp only [c3, if_true]
      · rw [Bool.not_eq_true] at c3
        by_cases c4 : b.doubled = true
        · simp only [c3, c4, if_true]
        · rw [Bool.not_eq_true] at c4
          simp only [c3, c4, Bool.false_eq_true, if_false]
          have key : b.onAction = w → b.onInnerAction = w → b.matchLength ≠ 0 → turnScore b ≠ b.matchLength - 2 ^ b.cube :=
            fun x y z u => hl ⟨u, z, x, y, c2, c1, c3, c4⟩
          unfold turnScore at key
          by_cases hw : b.onAction = w
          · subst hw
            rcases h1 with h1 | h1 <;> rcases h2 with h2 | h2 <;>
              simp [h1, h2, across, YOU, HIM, MONEY_GAME] at key ⊢ <;>
              by_cases hz : b.matchLength = 0 <;> simp [hz] at key ⊢ <;>
              grind
          · have hw' : ¬ (across w = across b.onAction) := fun x => hw (e1.1 x.symm)
            have hw2 : ¬ (w = b.onAction) := fun x => hw x.symm
            rcases h1 with h1 | h1 <;> simp [h1, YOU, HIM] at hw' hw2 ⊢ <;> simp [across] at hw' ⊢ <;> grind
    · simp only [c1, c2, ne_eq, not_true_eq_false, not_false_eq_true, if_false, if_true]
  · simp only [c1, ne_eq, not_false_eq_true, if_true]

theorem keepsSeats_run {b : Board} (h : Seated b) {e : Edit} (hk : keepsSeats e) : Seated (e.run b).st := by
  cases e with
  | set a =>
    obtain ⟨h1, h2, h3⟩ := h
    cases a <;> first | exact ⟨h1, h2, h3⟩ | exact ⟨hk, h2, h3⟩ | exact ⟨h1, hk, h3⟩ | exact ⟨h1, h2, hk⟩
  | setExtra n => exact h
  | flip =>
    show Seated b.flip.st
    rw [mirrored_flip h]
    exact mirrored_seated h
  | move pm =>
    simp only [Edit.run]
    cases e : b.makePartialMove pm with
    | error e => exact h
    | ok b' =>
      have := move_keeps e
      obtain ⟨h1, h2, h3⟩ := h
      rw [this]
      exact ⟨h1, h2, h3⟩
  | double w =>
    simp only [Edit.run, Board.double]
    obtain ⟨h1, h2, h3⟩ := h
    cases b.isLegalToDouble w with
    | error e => exact ⟨h1, h2, h3⟩
    | ok x =>
      cases x with
      | false => exact ⟨h1, h2, h3⟩
      | true =>
        unfold getOpp
        simp only [YOU, HIM]
        split
        · exact ⟨h1, h2, h3⟩
        · rename_i o ho
          refine ⟨h1, ?_, h3⟩
          show o = 0 ∨ o = 1
          grind
  | take w =>
    simp only [Edit.run, Board.take]
    obtain ⟨h1, h2, h3⟩ := h
    split
    · exact ⟨h1, h1, h3⟩
    · exact ⟨h1, h2, h3⟩
  | drop w =>
    simp only [Edit.run, Board.drop]
    obtain ⟨h1, h2, h3⟩ := h
    split
    · cases b.newScore w 0 (2 ^ b.cube) <;> exact ⟨h1, h2, h3⟩
    · exact ⟨h1, h2, h3⟩
  | offerResign w n =>
    simp only [Edit.run, Board.offerResign]
    obtain ⟨h1, h2, h3⟩ := h
    split
    · split
      · unfold getOpp
        simp only [YOU, HIM]
        split
        · rename_i o ho
          refine ⟨h1, ?_, h3⟩
          show o = 0 ∨ o = 1
          grind
        · exact ⟨h1, h2, h3⟩
      · exact ⟨h1, h2, h3⟩
    · exact ⟨h1, h2, h3⟩
  | acceptResign w =>
    simp only [Edit.run, Board.acceptResign]
    obtain ⟨h1, h2, h3⟩ := h
    split
    · cases b.newScore w (b.resignOffer * 2 ^ b.cube) 0 <;> exact ⟨h1, h2, h3⟩
    · exact ⟨h1, h2, h3⟩
  | rejectResign w =>
    simp only [Edit.run, Board.rejectResign]
    obtain ⟨h1, h2, h3⟩ := h
    split
    · unfold getOpp
      simp only [YOU, HIM]
      split
      · rename_i o ho
        refine ⟨h1, ?_, h3⟩
        show o = 0 ∨ o = 1
        grind
      · exact ⟨h1, h2, h3⟩
    · exact ⟨h1, h2, h3⟩
  | pickupDice =>
    obtain ⟨h1, h2, h3⟩ := h
    simp only [Edit.run, Board.pickupDice]
    rcases h1 with h1 | h1 <;> rcases h2 with h2 | h2 <;> rw [h1, h2] <;>
      exact ⟨by first | exact Or.inl rfl | exact Or.inr rfl, by first | exact Or.inl rfl | exact Or.inr rfl, h3⟩

end Bglib
