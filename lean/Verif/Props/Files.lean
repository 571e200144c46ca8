import Verif.Lemmas.Files
import Verif.Props.Layout
import Verif.Props.Device
import Verif.Props.Mag
/-
C104: the files that pictures need are there.
-/
namespace Bglib
open Spec Img

/-! ### C104: pictures can be painted with the files there are -/

theorem font_there : ∀ s ∈ plainStyles, s.2.2.font ∈ fontFiles := by decide +kernel

/-- **C104** for the six plain styles: whatever was painted before, the picture of every board is painted, at every size at which
it can be drawn.  Missing for the whole of C104: the styles safari, which `C104_safari` tells exactly, and matrix. -/
theorem C104_plain_partial (s : Text × List Text × Palette) (h : s ∈ plainStyles) :
    ∃ rules, loadCss s.1 s.2.1 = .ok rules ∧
      ∀ (L : Library) (b : Board) (size : Int × Int) (ops : List Op) (before : List (List Op)),
        Loads L → Sensible b → Drawable b → DiceOk b → opsSized rules size b = .ok ops →
        ∃ ps, (drawOn L rules size b (history L before [])).2 = .ok ps := by
  obtain ⟨rules, hl, hp⟩ := C68_picture_partial s h
  have hf : s.2.2.font ∈ fontFiles := font_there s h
  refine ⟨rules, hl, fun L b size ops before hL h1 h2 h3 ho => ?_⟩
  obtain ⟨scale, hz, hb⟩ := opsSized_board ho
  rw [hp b scale h1 h2 h3 hz] at hb
  have := resultOf_ok hb.symm
  subst this
  rw [C76_again, drawOn_ops ho]
  exact paintAll_can hL (can_picture _ hf b)

/-- With safari, exactly the boards with fewer than eight chequers of each player on the bar are painted: there are no images of more. -/
theorem C104_safari : ∃ rules, loadCss Safari.path Safari.lines = .ok rules ∧
    ∀ (L : Library) (b : Board) (size : Int × Int) (ops : List Op) (before : List (List Op)),
      Loads L → Sensible b → Drawable b → cnt b.position.1 24 ≤ 15 → cnt b.position.2 24 ≤ 15 → opsSized rules size b = .ok ops →
      ((∃ ps, (drawOn L rules size b (history L before [])).2 = .ok ps) ↔ cnt b.position.1 24 < 8 ∧ cnt b.position.2 24 < 8) := by
  refine ⟨Safari.rules, Safari.load, fun L b size ops before hL h1 h2 h3 h4 ho => ?_⟩
  obtain ⟨scale, hz, hb⟩ := opsSized_board ho
  rw [safari_picture (k := ⟨scale⟩) b h1 h2 hz] at hb
  have := resultOf_ok hb.symm
  subst this
  rw [C76_again, drawOn_ops ho]
  constructor
  · rintro ⟨ps, hp⟩
    constructor
    · by_contra hc
      exact paintAll_cannot (o := Ink.image ⟨scale⟩ 133 116 25 111 false (safari (t!"bar-white-" ++ pyStr (cnt b.position.1 24))))
        (white_mem ⟨scale⟩ b (card_mem ⟨scale⟩ _ _ _ _ _ _ _ (by omega) h3))
        (bar_cannot hL ⟨scale⟩ _ _ _ _ _ (by simp) _ (by omega) h3) ps hp
    · by_contra hc
      exact paintAll_cannot (o := Ink.image ⟨scale⟩ 133 5 25 111 false (safari (t!"bar-green-" ++ pyStr (cnt b.position.2 24))))
        (green_mem ⟨scale⟩ b (card_mem ⟨scale⟩ _ _ _ _ _ _ _ (by omega) h4))
        (bar_cannot hL ⟨scale⟩ _ _ _ _ _ (by simp) _ (by omega) h4) ps hp
  · rintro ⟨h5, h6⟩
    exact paintAll_can hL (can_safari _ b (by omega) (by omega))

/-- False with matrix: no board at all is painted, at no size; the font of the scores is not there. -/
theorem C104_false_matrix : ∃ rules, loadCss Matrix.path Matrix.lines = .ok rules ∧
    ∀ (L : Library) (b : Board) (size : Int × Int) (before : List (List Op)) (ps : List Paint),
      Loads L → Sensible b → Drawable b → DiceOk b → (drawOn L rules size b (history L before [])).2 ≠ .ok ps := by
  refine ⟨Matrix.rules, Matrix.load, fun L b size before ps hL h1 h2 h3 => ?_⟩
  rw [C76_again]
  cases ho : opsSized Matrix.rules size b with
  | error e =>
    unfold drawOn
    rw [ho]
    exact fun h => nomatch h
  | ok ops =>
    obtain ⟨scale, hz, hb⟩ := opsSized_board ho
    rw [matrix_picture (k := ⟨scale⟩) b h1 h2 h3 hz] at hb
    have := resultOf_ok hb.symm
    subst this
    rw [drawOn_ops ho]
    refine paintAll_cannot (o := Ink.text ⟨scale⟩ 800 500 200 300 (pyStr b.score.1) matrixFont t!"#3cb7ff") (by simp [Ink.matrixPicture]) ?_ ps
    exact text_cannot (hL.noFont _ ⟨(Matrix.path, Matrix.lines), by simp [shipped], t!"DejaVuLGCSans-Bold.ttf", by decide, rfl⟩
      (by decide +kernel)) (by decide) _ _ _ _

/-- A library that can load the files there are, and nothing else. -/
def shippedLibrary : Library :=
  ⟨fun u _ => if u ∈ fontFiles then .ok () else .error .ioError, fun f s => (f.size * s.length, f.size),
    fun u => if u ∈ imageFiles then .ok true else .error .ioError, fun _ _ => .ok ()⟩

/-- Non-vacuity: that library loads as is said, and pictures of the opening are drawn with all styles. -/
theorem shippedLibrary_loads : Loads shippedLibrary :=
  ⟨fun _ h _ => if_pos h, fun _ h => ⟨true, if_pos h⟩, fun _ _ _ => rfl, fun _ _ h _ => ⟨_, if_neg h⟩, fun _ _ h => ⟨_, if_neg h⟩⟩

/-- Eight chequers on the bar. -/
def shutOut : Board := { opening with position := ([0, 0, 0, 0, 0, 7, 0, 0, 0, 0, 0, 0, 0, 0, 0, 0, 0, 0, 0, 0, 0, 0, 0, 0, 8], opening.position.2) }

theorem size_there : ∀ s ∈ shipped, SizeOk (boardSize s.1).1 ∧ SizeOk (boardSize s.1).2 ∧
    SharpSize (boardSize s.1).1 (boardSize s.1).2 (boardSize s.1).1 (boardSize s.1).2 := by
  unfold SizeOk SharpSize
  decide +kernel

theorem drawn_sized (s : Text × List Text) (h : s ∈ shipped) (b : Board) (hs : Sensible b) (hw : Drawable b) (hd : DiceOk b) :
    ∃ rules ops, loadCss s.1 s.2 = .ok rules ∧ opsSized rules (boardSize s.1) b = .ok ops := by
  obtain ⟨rules, hl, hf⟩ := C69_fits s h
  obtain ⟨z1, z2, z3⟩ := size_there s h
  obtain ⟨ops, ho, -⟩ := hf b (boardSize s.1).1 (boardSize s.1).2 hs hw hd z1 z2 z3
  exact ⟨rules, ops, hl, opsSized_eq ho⟩

example : ∀ s ∈ shipped, ∃ rules ops, loadCss s.1 s.2 = .ok rules ∧ opsSized rules (boardSize s.1) opening = .ok ops := fun s h =>
  drawn_sized s h opening ⟨by decide, by decide, by decide, by unfold TurnsOk; decide⟩ (.inl (by decide)) (.inr (by decide))

/-- False with safari: a board in which eight chequers are on the bar. -/
theorem C104_false_safari : ∃ rules, loadCss Safari.path Safari.lines = .ok rules ∧ (∃ ops, opsSized rules (341, 232) shutOut = .ok ops) ∧
    ∀ L, Loads L → ∀ ps, (drawOn L rules (341, 232) shutOut []).2 ≠ .ok ps := by
  have hs : Sensible shutOut := ⟨by decide, by decide, by decide, by unfold TurnsOk; decide⟩
  have hw : Drawable shutOut := .inl (by decide)
  obtain ⟨rules, ops, hl, ho⟩ := drawn_sized (Safari.path, Safari.lines) (by simp [shipped]) shutOut hs hw (.inr (by decide))
  have hz : boardSize Safari.path = (341, 232) := by decide +kernel
  dsimp only at hl ho
  rw [hz] at ho
  obtain ⟨rules', hl', hp⟩ := C104_safari
  have e : rules' = rules := Except.ok.inj (hl'.symm.trans hl)
  subst e
  refine ⟨rules', hl, ⟨ops, ho⟩, fun L hL ps hps => ?_⟩
  have := (hp L shutOut (341, 232) ops [] hL hs hw (by decide) (by decide) ho).1 ⟨ps, hps⟩
  exact absurd this (by decide)

end Bglib
