import Verif.Lemmas.Theme.Deutsche
import Verif.Lemmas.Theme.Flower
import Verif.Lemmas.Theme.Kotobuki
import Verif.Lemmas.Theme.Matrix
import Verif.Lemmas.Theme.Minimal
import Verif.Lemmas.Theme.Nature
import Verif.Lemmas.Theme.Neon
import Verif.Lemmas.Theme.Safari
import Verif.Spec.Theme
import Verif.Model.GnubgId
/-
C67: every board can be drawn with every style that comes with the library.
-/
namespace Bglib
open Spec Img

theorem shipped_ready (s : Text × List Text) (h : s ∈ shipped) :
    ∃ rules, loadCss s.1 s.2 = .ok rules ∧ themeReady rules = true ∧ themeSeen rules = true := by
  simp only [shipped, List.mem_cons, List.not_mem_nil, or_false] at h
  rcases h with rfl | rfl | rfl | rfl | rfl | rfl | rfl | rfl
  · exact ⟨_, Deutsche.load, Deutsche.ready, Deutsche.seen⟩
  · exact ⟨_, Flower.load, Flower.ready, Flower.seen⟩
  · exact ⟨_, Kotobuki.load, Kotobuki.ready, Kotobuki.seen⟩
  · exact ⟨_, Matrix.load, Matrix.ready, Matrix.seen⟩
  · exact ⟨_, Minimal.load, Minimal.ready, Minimal.seen⟩
  · exact ⟨_, Nature.load, Nature.ready, Nature.seen⟩
  · exact ⟨_, Neon.load, Neon.ready, Neon.seen⟩
  · exact ⟨_, Safari.load, Safari.ready, Safari.seen⟩

/-- Each style sheet loads, and draws every board somebody has to act on, at any magnification. -/
theorem C67_draws (s : Text × List Text) (h : s ∈ shipped) :
    ∃ rules, loadCss s.1 s.2 = .ok rules ∧
      ∀ (b : Board) (scale : Int → Int), Sensible b → Drawable b → DiceOk b →
        ∃ ops, drawBoard rules scale b = .ok ops := by
  obtain ⟨rules, hl, hr, hs⟩ := shipped_ready s h
  exact ⟨rules, hl, fun b scale h1 h2 h3 => theme_draws rules hr hs b h1 h2 h3 scale⟩

example : shipped.length = 8 ∧ ((Deutsche.path, Deutsche.lines) ∈ shipped) := ⟨rfl, List.mem_cons_self⟩

/-- In particular every board of a game. -/
theorem C67_game (s : Text × List Text) (h : s ∈ shipped) :
    ∃ rules, loadCss s.1 s.2 = .ok rules ∧
      ∀ (b : Board) (scale : Int → Int), InGame b → DiceOk b → ∃ ops, drawBoard rules scale b = .ok ops := by
  obtain ⟨rules, hl, hr⟩ := C67_draws s h
  refine ⟨rules, hl, fun b scale hg hd => ?_⟩
  have hc : Consistent b := inGame_consistent b hg
  have hw : Drawable b := by
    by_cases hi : b.onInnerAction = b.onAction
    · exact Or.inr (Or.inl hi)
    · exact Or.inr (Or.inr (hc.2 hi))
  exact hr b scale hc.1 hw hd

/-- The board at the start, with the opening roll. -/
def opening : Board := { gameState := 1, rolled := (3, 1) }

example : Sensible opening ∧ Drawable opening ∧ DiceOk opening :=
  ⟨⟨by decide, by decide, by decide, by unfold TurnsOk; decide⟩, .inl (by decide), .inr (by decide)⟩

/-- Dice that do not show numbers of dice cannot be drawn: the condition on the dice is needed. -/
theorem C67_false_dice :
    ∃ rules, loadCss Deutsche.path Deutsche.lines = .ok rules ∧
      drawBoard rules id { opening with rolled := (7, 1) } = .error .assertion :=
  ⟨Deutsche.rules, Deutsche.load, by decide +kernel⟩

/-- Nor can a board on which the other player has to act without a double or an offer: position `v` of the library's own
drawing tests (testwriter.py:34) is one, whatever the style and the size. -/
theorem C67_false_test :
    (gnubgDecode {} t!"4HPhASjgc/ABMA" t!"MAmgAAAAAAAA").err = none ∧
      ∀ (rules : List Rule) (scale : Int → Int),
        drawBoard rules scale (gnubgDecode {} t!"4HPhASjgc/ABMA" t!"MAmgAAAAAAAA").board = .error .assertion := by
  refine ⟨by decide +kernel, fun rules scale => ?_⟩
  have h : (match ETree.create.set (gnubgDecode {} t!"4HPhASjgc/ABMA" t!"MAmgAAAAAAAA").board with
      | .error x => some x
      | .ok _ => none) = some .assertion := by decide +kernel
  unfold drawBoard
  split at h
  · next x hx =>
    cases h
    simp only [hx]
  · cases h

end Bglib
