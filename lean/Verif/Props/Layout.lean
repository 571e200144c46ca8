import Verif.Lemmas.Plain
import Verif.Lemmas.Legible
import Verif.Lemmas.SafariTree
import Verif.Lemmas.SafariLegible
import Verif.Lemmas.MatrixTree
import Verif.Lemmas.MatrixLegible
import Verif.Props.Theme
/-
C68: a picture shows the board.
-/
namespace Bglib
open Spec Img

/-- With the six plain styles, the picture of every board is the one written out in `Ink.picture`.
Missing for the whole of C68: the styles safari and matrix, with which it is false. -/
theorem C68_picture_partial (s : Text × List Text × Palette) (h : s ∈ plainStyles) :
    ∃ rules, loadCss s.1 s.2.1 = .ok rules ∧
      ∀ (b : Board) (scale : Int → Int), Sensible b → Drawable b → DiceOk b → scale 0 = 0 →
        drawBoard rules scale b = .ok ((Ink.mk scale).picture s.2.2 b) := by
  obtain ⟨rules, hl, hp, -⟩ := plain_ready s h
  exact ⟨rules, hl, fun b scale hs hw hd hz => plain_picture (k := ⟨scale⟩) hp b hs hw hd hz⟩

example : plainStyles.length = 6 ∧ ∀ s ∈ plainStyles, (s.1, s.2.1) ∈ shipped := by
  refine ⟨rfl, ?_⟩
  intro s h
  simp only [plainStyles, List.mem_cons, List.not_mem_nil, or_false] at h
  rcases h with rfl | rfl | rfl | rfl | rfl | rfl <;> simp [shipped]

/-- With these styles, boards with the same picture agree in everything the players see: the chequers, the scores,
the length, the Crawford game, who has to do what, the dice, the cube with its owner, and the offers.
Missing for the whole of C68: as above. -/
theorem C68_legible_partial (s : Text × List Text × Palette) (h : s ∈ plainStyles) :
    ∃ rules, loadCss s.1 s.2.1 = .ok rules ∧
      ∀ (b c : Board) (scale : Int → Int), scale 0 = 0 →
        Sensible b → Drawable b → DiceOk b → NoDebt b → b.position.1.sum ≤ 15 →
        Sensible c → Drawable c → DiceOk c → NoDebt c → c.position.1.sum ≤ 15 →
        drawBoard rules scale b = drawBoard rules scale c → SameSight b c := by
  obtain ⟨rules, hl, hp, hc⟩ := plain_ready s h
  refine ⟨rules, hl, fun b c scale hz sb wb db nb ob sc wc dc nc oc he => ?_⟩
  rw [plain_picture (k := ⟨scale⟩) hp b sb wb db hz, plain_picture (k := ⟨scale⟩) hp c sc wc dc hz] at he
  exact picture_inj hc sb sc wb wc db dc nb nc ob oc (Except.ok.inj he)

/-- The board of the examples. -/
example : Sensible opening ∧ Drawable opening ∧ DiceOk opening ∧ NoDebt opening ∧ opening.position.1.sum ≤ 15 :=
  ⟨⟨by decide, by decide, by decide, by unfold TurnsOk; decide⟩, .inl (by decide), .inr (by decide),
    by unfold NoDebt; decide, by decide⟩

/-- What is not said: the cube is known by its face, and a cube at 64 in the middle looks like one that was never
turned. -/
theorem C68_false_cube (s : Text × List Text × Palette) (h : s ∈ plainStyles) :
    ∃ rules, loadCss s.1 s.2.1 = .ok rules ∧
      drawBoard rules id opening = drawBoard rules id { opening with cube := 6 } := by
  obtain ⟨rules, hl, hp, -⟩ := plain_ready s h
  refine ⟨rules, hl, ?_⟩
  have h1 := plain_picture (k := ⟨id⟩) hp opening
    ⟨by decide, by decide, by decide, by unfold TurnsOk; decide⟩ (.inl (by decide)) (.inr (by decide)) rfl
  have h2 := plain_picture (k := ⟨id⟩) hp { opening with cube := 6 }
    ⟨by decide, by decide, by decide, by unfold TurnsOk; decide⟩ (.inl (by decide)) (.inr (by decide)) rfl
  rw [h1, h2]
  have : ∀ x y, (Ink.mk id).cube s.2.2 x y 0 = (Ink.mk id).cube s.2.2 x y 6 := fun _ _ => rfl
  have e : ∀ o, (Ink.mk id).cubeAt s.2.2 opening o = (Ink.mk id).cubeAt s.2.2 { opening with cube := 6 } o := by
    intro o
    by_cases ho : o = 3
    · subst ho; rfl
    · have : (3 : Int) ≠ o := fun x => ho x.symm
      simp [Ink.cubeAt, opening, CENTER, this]
  unfold Ink.picture
  rw [e 3, e 0, e 1]
  rfl

/-- With the style safari, the picture of every board is the one written out in `Ink.safariPicture`. -/
theorem C68_safari_picture_partial :
    ∃ rules, loadCss Safari.path Safari.lines = .ok rules ∧
      ∀ (b : Board) (scale : Int → Int), Sensible b → Drawable b → scale 0 = 0 →
        drawBoard rules scale b = .ok ((Ink.mk scale).safariPicture b) :=
  ⟨Safari.rules, Safari.load, fun b scale hs hw hz => safari_picture (k := ⟨scale⟩) b hs hw hz⟩

/-- With the style safari, boards with the same picture agree in everything the players see but one thing, as long as
there are images for their numbers.  Missing for the whole of C68: numbers without image, see `C68_false_safari`, and
whether the player who has to roll took a double, see `C68_false_took`. -/
theorem C68_safari_legible_partial :
    ∃ rules, loadCss Safari.path Safari.lines = .ok rules ∧
      ∀ (b c : Board) (scale : Int → Int), scale 0 = 0 →
        Sensible b → Drawable b → DiceOk b → HasCards b → Sensible c → Drawable c → DiceOk c → HasCards c →
        drawBoard rules scale b = drawBoard rules scale c → SafariSight b c := by
  refine ⟨Safari.rules, Safari.load, fun b c scale hz sb wb db nb sc wc dc nc he => ?_⟩
  rw [safari_picture (k := ⟨scale⟩) b sb wb hz, safari_picture (k := ⟨scale⟩) c sc wc hz] at he
  exact safari_inj sb sc wb wc db dc nb nc (Except.ok.inj he)

example : HasCards opening :=
  ⟨by decide, by decide, by decide, fun _ => by decide, by decide⟩

/-- With the style safari nobody sees whether the player who has to roll took a double before; the plain styles say
so. -/
theorem C68_false_took :
    ∃ rules, loadCss Safari.path Safari.lines = .ok rules ∧
      drawBoard rules id { opening with rolled := (0, 0) } =
        drawBoard rules id { opening with rolled := (0, 0), doubled := true } :=
  ⟨Safari.rules, Safari.load, by decide +kernel⟩

/-- With the style safari the scores 26 and 27 give the same picture, and so do the match lengths. -/
theorem C68_false_safari :
    ∃ rules, loadCss Safari.path Safari.lines = .ok rules ∧
      drawBoard rules id { opening with score := (26, 0), matchLength := 30 } =
        drawBoard rules id { opening with score := (27, 0), matchLength := 31 } :=
  ⟨Safari.rules, Safari.load, by decide +kernel⟩

/-- With the style matrix the cube is never seen: it does not matter who owns it, nor what it says; the length of
the match and the Crawford game are not seen either. -/
theorem C68_false_matrix :
    ∃ rules, loadCss Matrix.path Matrix.lines = .ok rules ∧
      drawBoard rules id opening =
        drawBoard rules id { opening with cube := 3, cubeOwner := 1, matchLength := 7, crawford := true } :=
  ⟨Matrix.rules, Matrix.load, by decide +kernel⟩

/-- With the style matrix, the picture of every board is the one written out in `Ink.matrixPicture`. -/
theorem C68_matrix_picture_partial :
    ∃ rules, loadCss Matrix.path Matrix.lines = .ok rules ∧
      ∀ (b : Board) (scale : Int → Int), Sensible b → Drawable b → DiceOk b → scale 0 = 0 →
        drawBoard rules scale b = .ok ((Ink.mk scale).matrixPicture b) :=
  ⟨Matrix.rules, Matrix.load, fun b scale hs hw hd hz => matrix_picture (k := ⟨scale⟩) b hs hw hd hz⟩

/-- With the style matrix, boards with the same picture agree in what `MatrixSight` lists, unless the picture is made
much smaller: here the chequers of different points are told apart by where they lie.  Missing for the whole of C68:
the cube, the length and so on, see `C68_false_matrix`; the smallest pictures. -/
theorem C68_matrix_legible_partial :
    ∃ rules, loadCss Matrix.path Matrix.lines = .ok rules ∧
      ∀ (b c : Board) (scale : Int → Int), Magnifies scale →
        Sensible b → Drawable b → DiceOk b → NoDebt b → Sensible c → Drawable c → DiceOk c → NoDebt c →
        drawBoard rules scale b = drawBoard rules scale c → MatrixSight b c := by
  refine ⟨Matrix.rules, Matrix.load, fun b c scale hm sb wb db nb sc wc dc nc he => ?_⟩
  have hz : scale 0 = 0 := mag_zero (k := ⟨scale⟩) hm
  rw [matrix_picture (k := ⟨scale⟩) b sb wb db hz, matrix_picture (k := ⟨scale⟩) c sc wc dc hz] at he
  exact matrix_inj (k := ⟨scale⟩) hm sb sc nb nc (Except.ok.inj he)

/-- `int(x * mag)` with `mag = p / q` from 0.6 on is such a magnification; so is the identity. -/
example : (∀ p q : Int, 0 < q → 3 * q ≤ 5 * p → Magnifies fun x => (x * p).tdiv q) ∧ Magnifies id :=
  ⟨mag_fraction, ⟨fun _ h => h, fun _ => rfl, fun _ _ _ _ => ⟨Int.le_refl _, Int.le_of_lt (Int.lt_succ _)⟩, by decide⟩⟩

/-- With the style matrix, pictures made very small cannot be read: all chequers lie in one place. -/
theorem C68_false_small :
    ∃ rules, loadCss Matrix.path Matrix.lines = .ok rules ∧
      drawBoard rules (fun x => x.tdiv 1000) opening = drawBoard rules (fun x => x.tdiv 1000)
        { opening with position := (opening.position.1.set 5 4 |>.set 4 1, opening.position.2) } :=
  ⟨Matrix.rules, Matrix.load, by decide +kernel⟩

end Bglib
