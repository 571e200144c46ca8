import Verif.Lemmas.Device
import Verif.Props.Mag
/-
C75: what is painted lies in the picture.
-/
namespace Bglib
open Spec Img

/-- Operations that lie in the picture paint no pixel outside of it. -/
theorem C75_operations (L : Library) (bw bh : Int) (ops : List Op) (ps : List Paint)
    (h : (paintAll L ops []).2 = .ok ps) (hf : ∀ o ∈ ops, OpFits bw bh o) (p : Paint) (hp : p ∈ ps) (q : Int × Int)
    (hq : Covers L q p) : PixelOf (0, 0) (bw, bh) q := by
  obtain ⟨o, ho, l, hl, hpl⟩ := paintAll_ok h hp
  have hfit := hf o ho
  unfold PixelOf
  dsimp only
  cases o with
  | text pos size s u fill =>
    have hfit : BoxFits bw bh pos size := hfit
    rcases drawText_ok hl with rfl | ⟨n, ht, rfl⟩
    · cases hpl
    · rw [List.mem_singleton] at hpl
      subst hpl
      unfold Covers middle at hq
      unfold TextFits at ht
      unfold BoxFits at hfit
      dsimp only at hq
      omega
  | ellipse pos size fill =>
    have hfit : BoxFits bw bh pos (size.1 + 1, size.2 + 1) := hfit
    cases hl
    rw [List.mem_singleton] at hpl
    subst hpl
    unfold Covers at hq
    unfold BoxFits at hfit
    dsimp only at hq hfit
    omega
  | polygon pts fill =>
    have hfit : ∀ p ∈ pts, BoxFits bw bh p (1, 1) := hfit
    cases hl
    rw [List.mem_singleton] at hpl
    subst hpl
    unfold Covers at hq
    obtain ⟨⟨a, ha, h1⟩, ⟨b, hb, h2⟩, ⟨c, hc, h3⟩, d, hd, h4⟩ := hq
    have := hfit a ha
    have := hfit b hb
    have := hfit c hc
    have := hfit d hd
    unfold BoxFits at *
    dsimp only at *
    omega
  | rect pos size fill =>
    have hfit : BoxFits bw bh pos size := hfit
    cases hl
    rw [List.mem_singleton] at hpl
    subst hpl
    unfold Covers at hq
    unfold BoxFits at hfit
    dsimp only at hq
    omega
  | image u size fl pos =>
    have hfit : BoxFits bw bh pos size := hfit
    have st : ∀ pc, Steady L (pasteImage pc pos size) := fun pc => by
      unfold pasteImage; split
      · exact steady_fail _
      · exact steady_ok _
    obtain ⟨pc, -, h2⟩ := andThen_ok (steady_loadImage L u size fl) st hl
    unfold pasteImage at h2
    split at h2
    · cases h2
    · cases h2
      rw [List.mem_singleton] at hpl
      subst hpl
      unfold Covers at hq
      unfold BoxFits at hfit
      dsimp only at hq
      omega

example : (paintAll plainLibrary [.ellipse (1, 2) (3, 4) none] []).2 = .ok [.ellipse (1, 2) (4, 6) none] ∧
    OpFits 5 7 (.ellipse (1, 2) (3, 4) none) ∧ Covers plainLibrary (4, 6) (.ellipse (1, 2) (4, 6) none) :=
  ⟨by decide +kernel, by unfold OpFits BoxFits; decide, by decide⟩

/-- With each of the styles that come with the library no pixel outside of the picture is painted, whatever the library
of images and fonts says, at every sharp size.
Missing for the whole of C75: boxes, see `C75_false`. -/
theorem C75_pictures_partial (s : Text × List Text) (h : s ∈ shipped) :
    ∃ rules, loadCss s.1 s.2 = .ok rules ∧
      ∀ (L : Library) (b : Board) (bw bh : Int) (ps : List Paint), Sensible b → Drawable b → DiceOk b →
        SizeOk bw → SizeOk bh → SharpSize (boardSize s.1).1 (boardSize s.1).2 bw bh →
        (drawOn L rules (bw, bh) b []).2 = .ok ps → ∀ p ∈ ps, ∀ q, Covers L q p → PixelOf (0, 0) (bw, bh) q := by
  obtain ⟨rules, hl, hr⟩ := C69_fits s h
  refine ⟨rules, hl, fun L b bw bh ps h1 h2 h3 h4 h5 h6 hd => ?_⟩
  obtain ⟨ops, he, hf⟩ := hr b bw bh h1 h2 h3 h4 h5 h6
  unfold drawOn at hd
  rw [opsSized_eq he] at hd
  exact C75_operations L bw bh _ ps hd hf

/-- A picture of the opening position is painted. -/
example : ∃ rules, loadCss Deutsche.path Deutsche.lines = .ok rules ∧
    ((drawOn plainLibrary rules (341, 262) opening []).2.toOption.map List.length) = some 77 :=
  ⟨Deutsche.rules, Deutsche.load, by decide +kernel⟩

/-- An ellipse is not painted in its box: it is one pixel wider and higher.  A rectangle is painted in its box. -/
theorem C75_false (L : Library) (pos size : Int × Int) (hs : 0 ≤ size.1 ∧ 0 ≤ size.2) (fill : Text) :
    (∃ p, (paintOp L (.ellipse pos size (some fill)) []).2 = .ok [p] ∧
      Covers L (pos.1 + size.1, pos.2 + size.2) p ∧ ¬ PixelOf pos size (pos.1 + size.1, pos.2 + size.2)) ∧
    ∃ p, (paintOp L (.rect pos size fill) []).2 = .ok [p] ∧ ∀ q, Covers L q p ↔ PixelOf pos size q := by
  refine ⟨⟨_, rfl, ?_, ?_⟩, _, rfl, fun q => ?_⟩
  · unfold Covers; dsimp only; omega
  · unfold PixelOf; dsimp only; omega
  · unfold Covers PixelOf; dsimp only; omega

example : (0 : Int) ≤ ((3, 4) : Int × Int).1 ∧ (0 : Int) ≤ ((3, 4) : Int × Int).2 := by decide

end Bglib
