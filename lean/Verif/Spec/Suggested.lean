import Verif.Spec.Turn
/-
A turn played with the move factory as a program with a board to click on does it: the player points at a chequer, at a
point, or at both, and what is suggested is played; the last movement may be taken back.
-/
namespace Bglib.Spec
open Factory

/-- What the factory suggests. -/
inductive Offered (f : Factory) : List PartialMove → Prop where
  | source (src : Int) (pm : PartialMove) : fromSource f.board f.avail src = .ok (some pm) → Offered f [pm]
  | dest (dest : Int) (pm : PartialMove) : fromDest f.board f.avail dest = .ok (some pm) → Offered f [pm]
  | way (src dest : Int) (pms : List PartialMove) : (multiplePms f.board f.avail src dest).res = .ok (some pms) →
      Offered f pms

/-- The states of the factory in a turn that begins on `b`. -/
inductive Suggested (b : Board) : Factory → Prop where
  | start : Suggested b (Factory.new b)
  | play (f f' : Factory) (pms : List PartialMove) : Suggested b f → Offered f pms → f.addAll pms = ⟨f', none⟩ →
      Suggested b f'
  | back (f f' : Factory) (pms : List PartialMove) (pm : PartialMove) : Suggested b f → f.move = pms ++ [pm] →
      f.append pm.inverse = ⟨f', none⟩ → Suggested b f'

end Bglib.Spec
