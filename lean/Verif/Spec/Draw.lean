import Verif.Model.Draw
import Verif.Spec.Picture
/-
The words used in the statements about drawing (C66, C67).
-/
namespace Bglib.Spec
open Bglib Bglib.Img

/-- A box, given by its corner and its size, lies in another one. -/
def Within (q d p s : Int × Int) : Prop :=
  p.1 ≤ q.1 ∧ q.1 + d.1 ≤ p.1 + s.1 ∧ p.2 ≤ q.2 ∧ q.2 + d.2 ≤ p.2 + s.2

/-- Two boxes of the same size have no pixel in common. -/
def Apart (d a b : Int × Int) : Prop :=
  a.1 + d.1 ≤ b.1 ∨ b.1 + d.1 ≤ a.1 ∨ a.2 + d.2 ≤ b.2 ∨ b.2 + d.2 ≤ a.2

/-- A point lies in a box. -/
def InBox (q p s : Int × Int) : Prop := p.1 ≤ q.1 ∧ q.1 ≤ p.1 + s.1 ∧ p.2 ≤ q.2 ∧ q.2 ≤ p.2 + s.2

/-- The word for a resignation. -/
def resignWord (n : Nat) : Text :=
  if n = 1 then t!"single" else if n = 2 then t!"gammon" else t!"backgammon"

/-- The dice show numbers of dice, or nothing is rolled. -/
def DiceOk (b : Board) : Prop :=
  b.rolled = (0, 0) ∨ (1 ≤ b.rolled.1 ∧ b.rolled.1 ≤ 6 ∧ 1 ≤ b.rolled.2 ∧ b.rolled.2 ≤ 6)

end Bglib.Spec
