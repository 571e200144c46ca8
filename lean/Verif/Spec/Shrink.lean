import Verif.Model.Shrink
/-
The words used in the statements about the conversion of images (C126).
-/
namespace Bglib.Spec.Shrink
open Bglib Bglib.Shrink

/-- The name of a large image, and that of the image made from it. -/
def large (s : Text) : Text := s ++ t!"-cut.jpg"
def small (s : Text) : Text := s ++ t!".jpg"

instance (s : Text) : Decidable (∃ r, s = t!"bar" ++ r) :=
  decidable_of_iff (t!"bar".isPrefixOf s = true) (by
    rw [List.isPrefixOf_iff_prefix]
    exact ⟨fun ⟨r, h⟩ => ⟨r, h.symm⟩, fun ⟨r, h⟩ => ⟨r, h.symm⟩⟩)

/-- Bars are wider than points. -/
def sizeFor (s : Text) : Nat × Nat := if ∃ r, s = t!"bar" ++ r then (25, 88) else (19, 88)

/-- The image that the library makes from a file. -/
def made {Data Img : Type} (lib : Lib Data Img) (d : Dir Data) (n : Text) (size : Nat × Nat) : Option Data :=
  ((d n).bind (lib.resized · size)).bind lib.saved

/-- Names that end with `cut.jpg` are of large images, and the names of what is made from them do not end so. -/
def Regular (names : List Text) : Prop := ∀ n ∈ names, isCut n = true → ∃ s, n = large s ∧ isCut (small s) = false

/-- The library can make all of the images. -/
def CanMake {Data Img : Type} (lib : Lib Data Img) (d : Dir Data) (names : List Text) : Prop :=
  ∀ s, large s ∈ names → (made lib d (large s) (sizeFor s)).isSome = true

/-- No two listed files give the same name, and none gives the name of another large image. -/
def NoClash (names : List Text) : Prop := ∀ n ∈ names, isCut n = true → ∀ k ∈ names, isCut k = true →
  (saveName n = saveName k → n = k) ∧ saveName n ≠ k

end Bglib.Spec.Shrink
