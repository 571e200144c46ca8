import Verif.Lemmas.Device
/-
C74: the texts of a picture.  C76: a device can be used again.
-/
namespace Bglib
open Spec Img

/-- A text is painted in the middle of its box, in the largest of the sizes tried that fits, or not at all
when none of them fits. -/
theorem C74_size_partial (L : Library) (pos size : Int × Int) (s uri fill : Text) (hu : uri ≠ [])
    (hl : ∀ n, Tried size n → L.truetype uri n = .ok ()) :
    (∃ n, Tried size n ∧ TextFits L uri size s n ∧ (∀ m, Tried size m → n < m → ¬ TextFits L uri size s m) ∧
      (drawText L pos size s uri fill []).2 =
        .ok [.text (middle pos size (L.getsize ⟨uri, n⟩ s)) s ⟨uri, n⟩ fill]) ∨
    ((∀ n, Tried size n → ¬ TextFits L uri size s n) ∧ (drawText L pos size s uri fill []).2 = .ok []) := by
  have key := tryFonts_spec hu size s (size.2 - 8).toNat size.2 (fun m h1 h2 => hl m (by unfold Tried; omega))
  have e : (drawText L pos size s uri fill []).2 = match (tryFonts L uri size s (size.2 - 8).toNat size.2 []).2 with
      | .error e => .error e
      | .ok (none, _) => .ok []
      | .ok (some n, m) => match L.truetype uri n with
        | .ok () => .ok [.text (middle pos size m) s ⟨uri, n⟩ fill]
        | .error e => .error e := by
    unfold drawText calcFontSize
    refine (andThen_res (steady_tryFonts L uri size s _ _) fun r => ?_).trans ?_
    · split
      · exact steady_ok _
      · exact steady_andThen (steady_loadFont L uri _) fun f => steady_ok _
    rcases (tryFonts L uri size s (size.2 - 8).toNat size.2 []).2 with z | ⟨_ | n, m⟩
    · rfl
    · rfl
    · refine (andThen_res (steady_loadFont L uri n) fun f => steady_ok _).trans ?_
      rw [loadFont_res hu]
      dsimp only
      rcases L.truetype uri n with z | z <;> rfl
  rw [e]
  rcases key with ⟨n, h1, h2, h3, h4, h5⟩ | ⟨h1, h2⟩
  · have ht : Tried size n := by unfold Tried; omega
    refine .inl ⟨n, ht, h3, fun m h6 h7 => h4 m h7 (by unfold Tried at h6; omega), ?_⟩
    rw [h5]
    simp only [hl n ht]
  · refine .inr ⟨fun n h3 => h1 n (by unfold Tried at h3; omega) (by unfold Tried at h3; omega), ?_⟩
    rw [h2]

example : (∀ n, Tried (100, 20) n → plainLibrary.truetype t!"f" n = .ok ()) ∧
    (drawText plainLibrary (0, 0) (100, 20) t!"12345" t!"f" t!"black" []).2 =
      .ok [.text (2, 0) t!"12345" ⟨t!"f", 19⟩ t!"black"] := ⟨fun _ _ => rfl, by decide +kernel⟩

/-- What is painted of a text lies in its box; the room on its two sides differs by at most one pixel. -/
theorem C74_inside (L : Library) (pos size : Int × Int) (s uri fill : Text) (n : Int) (h : TextFits L uri size s n) :
    (∀ q, Covers L q (.text (middle pos size (L.getsize ⟨uri, n⟩ s)) s ⟨uri, n⟩ fill) → PixelOf pos size q) ∧
      let left := (middle pos size (L.getsize ⟨uri, n⟩ s)).1 - pos.1
      let right := size.1 - (L.getsize ⟨uri, n⟩ s).1 - left
      0 ≤ left ∧ left ≤ right ∧ right ≤ left + 1 := by
  unfold TextFits at h
  unfold middle Covers PixelOf
  dsimp only
  refine ⟨fun q hq => ?_, ?_⟩ <;> omega

example : TextFits plainLibrary t!"f" (100, 20) t!"12345" 19 := by unfold TextFits; decide

/-- A text may be left out although it fits in a smaller size, and a lower box gets a size below 8. -/
theorem C74_false :
    ∃ (L : Library) (s : Text), (∀ u n, L.truetype u n = .ok ()) ∧
      TextFits L t!"f" (30, 20) s 7 ∧ (drawText L (0, 0) (30, 20) s t!"f" t!"black" []).2 = .ok [] ∧
      (drawText ⟨L.truetype, fun f s => (f.size * s.length, f.size - 1), L.open_, L.resize⟩ (0, 0) (30, 5) s t!"f" t!"black" []).2 =
        .ok [.text (5, 0) s ⟨t!"f", 5⟩ t!"black"] :=
  ⟨plainLibrary, t!"2048", fun _ _ => rfl, by unfold TextFits; decide, by decide +kernel, by decide +kernel⟩

/-- Whatever was painted before, also when an exception ended it, a picture comes out as on a new device. -/
theorem C76_again (L : Library) (rules : List Rule) (size : Int × Int) (b : Board) (before : List (List Op)) :
    (drawOn L rules size b (history L before [])).2 = (drawOn L rules size b []).2 :=
  (steady_drawOn L rules size b _ (history_ok L before [] (cacheOk_nil L))).2

/-- The device does keep what it has loaded. -/
example : history plainLibrary [[.text (0, 0) (30, 9) t!"1" t!"f" t!"black"]] [] =
    [(.font t!"f" 8, .font ⟨t!"f", 8⟩), (.font t!"f" 9, .font ⟨t!"f", 9⟩)] := by decide +kernel

/-- The same without the board: any operations. -/
theorem C76_operations (L : Library) (ops : List Op) (before : List (List Op)) :
    (paintAll L ops (history L before [])).2 = (paintAll L ops []).2 :=
  (steady_paintAll L ops _ (history_ok L before [] (cacheOk_nil L))).2

example : (paintAll plainLibrary [.image t!"i" (3, 4) true (1, 1)] []).2 =
    .ok [.image ⟨t!"i", (3, 4), true, true⟩ (1, 1) (4, 5)] := by decide +kernel

end Bglib
