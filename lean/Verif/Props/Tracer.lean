import Verif.Lemmas.Tracer
import Verif.Props.GnubgId
/-
C70: following a recorded game.
-/
namespace Bglib
open Spec

/-- **C70** A tracer made from the ID of a board (position ID, colon, match ID) holds that board.  Not
in a running money game with points on the score, whose ID is refused (C06). -/
theorem C70_start (b : Board) (h : Fits b)
    (hm : ¬ (b.gameState = ON_GOING ∧ b.matchLength = 0 ∧ (0 < b.score.1 ∨ 0 < b.score.2))) :
    ∃ pid mid, gnubgEncode b = .ok (pid, mid) ∧
      Tracer.ofId (pid ++ ':' :: mid) = .ok (Tracer.ofBoard b) := by
  obtain ⟨pid, mid, he, hd⟩ := C06_roundtrip_partial b {} h hm
  refine ⟨pid, mid, he, ?_⟩
  obtain ⟨h1, h2⟩ := encode_no_colon he
  unfold Tracer.ofId
  rw [splitChar_append _ _ _ h1, splitChar_none _ _ h2]
  simp only [hd, Tracer.ofBoard]

example : Fits {} ∧ ¬ (({} : Board).gameState = ON_GOING ∧ ({} : Board).matchLength = 0 ∧
    (0 < ({} : Board).score.1 ∨ 0 < ({} : Board).score.2)) :=
  ⟨⟨row_of_mem (by decide) (by decide), row_of_mem (by decide) (by decide), by decide, by decide,
    by decide, by decide, by decide, by decide, by decide, by decide, by decide, by decide, by decide⟩,
    by decide⟩

/-- **C70** A text without exactly one colon is refused with a `ValueError`. -/
theorem C70_colon (s : Text) (h : s.count ':' ≠ 1) : Tracer.ofId s = .error .valueError := by
  have hl := splitChar_length ':' s
  unfold Tracer.ofId
  split
  · rename_i pid mid e
    rw [e] at hl
    simp only [List.length_cons, List.length_nil] at hl
    omega
  · rfl

example : (t!"4HPwATDgc/ABMA").count ':' ≠ 1 := by decide

/-- **C70** (what holds of the actions) After any calls of its methods a tracer holds the board it was
made with, and accepts exactly the entries of the five kinds with a position that are by the player who
has to act; all others are an `AssertionError`. -/
theorem C70_accepts (b : Board) (cs : List Tracer.Call) (d : ActionDict) :
    let t := (Tracer.ofBoard b).calls cs
    t.board = b ∧ (t.setAction d = .ok () ↔ Entry b d) ∧
      (¬ Entry b d → t.setAction d = .error .assertion) := by
  simp only [calls_eq]
  exact ⟨rfl, setAction_iff b d⟩

example : Entry {} ⟨some t!"move", some t!"X", some t!"4HPwATDgc/ABMA"⟩ ∧
    ¬ Entry {} ⟨some t!"move", some t!"O", some t!"4HPwATDgc/ABMA"⟩ :=
  ⟨⟨⟨_, rfl, Or.inr (Or.inl rfl)⟩, by decide, by decide, by decide⟩, fun h => absurd h.2.2.2 (by decide)⟩

/-- Full statement of C70 for a move: once the entry of a move is accepted, the board to move on can be
asked for. -/
def C70_statement : Prop := ∀ (b : Board) (d : ActionDict),
  (Tracer.ofBoard b).setAction d = .ok () → d.action = some t!"move" →
  ∃ r, (((Tracer.ofBoard b).call (.set d)).st.ask .move) = .ok r

/-- **C70 is false** of the code: `set_action` checks the entry but does not keep it, so every question
asked of a tracer, after any calls, is an `AssertionError`. -/
theorem C70_false_ask (b : Board) (cs : List Tracer.Call) (k : Tracer.Ask) :
    ((Tracer.ofBoard b).calls cs).ask k = .error .assertion := by
  rw [calls_eq]; rfl

theorem C70_false : ¬ C70_statement := by
  intro h
  obtain ⟨r, hr⟩ := h {} ⟨some t!"move", some t!"X", some t!"4HPwATDgc/ABMA"⟩ (by decide) rfl
  exact absurd hr (by rw [show (((Tracer.ofBoard {}).call
    (.set ⟨some t!"move", some t!"X", some t!"4HPwATDgc/ABMA"⟩)).st.ask .move) = .error .assertion from rfl]
                      exact fun e => by cases e)

/-- **C70** Entries as GNU Backgammon writes them for a take or a resignation, with no position, are
refused for every board. -/
theorem C70_false_entry (b : Board) (a p : Text) (cs : List Tracer.Call) :
    ((Tracer.ofBoard b).calls cs).setAction ⟨some a, some p, none⟩ = .error .assertion :=
  (C70_accepts b cs _).2.2 (fun h => h.2.1 rfl)

end Bglib
