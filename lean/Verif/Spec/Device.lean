import Verif.Model.Device
/-
What is painted (C74, C75, C76).
-/
namespace Bglib.Spec
open Bglib Bglib.Img

/-- A text in a font of this size is smaller than its box. -/
def TextFits (L : Library) (uri : Text) (size : Int × Int) (s : Text) (n : Int) : Prop :=
  (L.getsize ⟨uri, n⟩ s).1 < size.1 ∧ (L.getsize ⟨uri, n⟩ s).2 < size.2

/-- The sizes of fonts that are tried for a box: its height, and everything smaller down to 8. -/
def Tried (size : Int × Int) (n : Int) : Prop := n = size.2 ∨ (8 ≤ n ∧ n < size.2)

/-- The place of a text in the middle of a box. -/
def middle (pos size t : Int × Int) : Int × Int := (pos.1 + (size.1 - t.1) / 2, pos.2 + (size.2 - t.2) / 2)

/-- The pixels of what is painted.  A rectangle and an ellipse include their corners; of a polygon all that lies
between its points is counted; a text covers the size it is measured with; an image ends before its second
corner. -/
def Covers (L : Library) (q : Int × Int) : Paint → Prop
  | .rect a b _ => a.1 ≤ q.1 ∧ a.2 ≤ q.2 ∧ q.1 ≤ b.1 ∧ q.2 ≤ b.2
  | .ellipse a b _ => a.1 ≤ q.1 ∧ a.2 ≤ q.2 ∧ q.1 ≤ b.1 ∧ q.2 ≤ b.2
  | .polygon pts _ => (∃ p ∈ pts, p.1 ≤ q.1) ∧ (∃ p ∈ pts, p.2 ≤ q.2) ∧ (∃ p ∈ pts, q.1 ≤ p.1) ∧ ∃ p ∈ pts, q.2 ≤ p.2
  | .text p s f _ => p.1 ≤ q.1 ∧ p.2 ≤ q.2 ∧ q.1 < p.1 + (L.getsize f s).1 ∧ q.2 < p.2 + (L.getsize f s).2
  | .image _ a b => a.1 ≤ q.1 ∧ a.2 ≤ q.2 ∧ q.1 < b.1 ∧ q.2 < b.2

/-- A pixel of a box of this place and size. -/
def PixelOf (pos size q : Int × Int) : Prop :=
  pos.1 ≤ q.1 ∧ pos.2 ≤ q.2 ∧ q.1 < pos.1 + size.1 ∧ q.2 < pos.2 + size.2

instance (L : Library) (q : Int × Int) (p : Paint) : Decidable (Covers L q p) := by
  cases p <;> unfold Covers <;> infer_instance

instance (pos size q : Int × Int) : Decidable (PixelOf pos size q) := by unfold PixelOf; infer_instance

/-- A library for examples: everything can be loaded, letters are as wide and as high as the size. -/
def plainLibrary : Library :=
  ⟨fun _ _ => .ok (), fun f s => (f.size * s.length, f.size), fun _ => .ok true, fun _ _ => .ok ()⟩

end Bglib.Spec
