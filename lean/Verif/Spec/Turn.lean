import Verif.Spec.Dice
/-
When a turn is over.
-/
namespace Bglib.Spec

/-- `pms` is a legal play from `b` with the dice `ds`, each used at most once. -/
def Playable (b : Board) (ds : List Int) (pms : List PartialMove) : Prop :=
  (∃ b', PlayTo b pms b') ∧ UsesDice pms ds

/-- Some chequer can be moved legally on `b` with one of the dice `ds`. -/
def CanMove (b : Board) (ds : List Int) : Prop :=
  ∃ die ∈ ds, ∃ src dest hit, LegalStep (mine b) (theirs b) die src dest hit

/-- The turn that began on `b` is over after `n` movements: no legal play of the roll is longer. -/
def TurnOver (b : Board) (n : Nat) : Prop :=
  ∀ pms, Playable b (diceOf b.rolled) pms → pms.length ≤ n

/-- The turn that began on `b` may end after `pms`: no legal play of the roll is longer, and none of the
same length uses higher dice (if only one of two different dice can be played it must be the higher one
that can). -/
def MayStop (b : Board) (pms : List PartialMove) : Prop :=
  TurnOver b pms.length ∧ ∀ q, Playable b (diceOf b.rolled) q → q.length = pms.length →
    (q.map (·.die)).sum ≤ (pms.map (·.die)).sum

/-- Two of the dice can be played with one and the same chequer, from a point to a point. -/
def BothByOne (b : Board) (ds : List Int) : Prop :=
  ∃ pms src dest, Playable b ds pms ∧ pms.length = 2 ∧ Leads pms src dest ∧ src ≤ 23 ∧ 0 ≤ dest

/-- The die can be played with a chequer that is not on the bar. -/
def FromPoint (b : Board) (die : Int) : Prop :=
  ∃ src dest hit, src ≤ 23 ∧ LegalStep (mine b) (theirs b) die src dest hit

end Bglib.Spec
