import Verif.Model.WxDevice
import Verif.Props.Mag
/-
C86: boards can be drawn in windows.
-/
namespace Bglib
open Img Spec

/-- **C86** is false of the code: whatever can be drawn at all, with any rules, any size and any board, is an
`AttributeError` on this device. -/
theorem C86_false (rules : List Rule) (size : Int × Int) (b : Board) (ops : List Op)
    (h : drawSized rules size b = .ok ops) : drawWx rules size b = .error .attributeError := by
  unfold drawSized at h
  unfold drawWx opsSized
  cases h1 : ETree.create.set b with
  | error e => rw [h1] at h; cases h
  | ok t =>
    rw [h1] at h
    dsimp only at h ⊢
    cases h2 : t.board.styled rules [] with
    | error e => rw [h2] at h; cases h
    | ok t' =>
      rw [h2] at h
      dsimp only at h ⊢
      cases h3 : treeMag t' size with
      | error e => rw [h3] at h; cases h
      | ok mag =>
        rw [h3] at h
        dsimp only at h ⊢
        cases h4 : t'.drawn (applyMag mag) [] with
        | error e => rw [h4] at h; cases h
        | ok os =>
          rw [h4] at h
          dsimp only at h ⊢
          cases os with
          | nil => cases h
          | cons o os => rfl

/-- **C86** Every board is such: with each of the styles that come with the library, at each size that can be drawn. -/
theorem C86_false_shipped (s : Text × List Text) (h : s ∈ shipped) :
    ∃ rules, loadCss s.1 s.2 = .ok rules ∧
      ∀ (b : Board) (bw bh : Int), Sensible b → Drawable b → DiceOk b → SizeOk bw → SizeOk bh →
        SharpSize (boardSize s.1).1 (boardSize s.1).2 bw bh → drawWx rules (bw, bh) b = .error .attributeError := by
  obtain ⟨rules, hl, hd⟩ := C69_draws s h
  refine ⟨rules, hl, fun b bw bh h1 h2 h3 h4 h5 h6 => ?_⟩
  obtain ⟨ops, ho⟩ := (hd b bw bh h1 h2 h3 h4 h5).1 h6
  exact C86_false rules (bw, bh) b ops ho

end Bglib
