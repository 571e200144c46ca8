import Verif.Model.Snowie
/-
The format of match records (C33, C34, C58): the length of the match; then games: two headers, the moves
numbered 1, 2, 3, ..., possibly a line with the result, and empty lines.
-/
namespace Bglib.Spec
open Bglib Bglib.Snowie

/-- The kinds of the lines of a game with `n` numbered lines, possibly a result, and empty lines. -/
def gameKinds (n : Nat) (res : Bool) (empties : Nat) : List Kind :=
  [.gameHeader, .playerHeader] ++ (List.range n).map (fun i => .moves (i + 1)) ++
    (if res then [.result] else []) ++ List.replicate empties .empty

/-- The kinds of the lines of a game. -/
def IsGame (ks : List Kind) : Prop := ∃ n res e, 1 ≤ n ∧ ks = gameKinds n res e

/-- The format. -/
def WellFormed (ks : List Kind) : Prop :=
  ∃ e gs, gs ≠ [] ∧ (∀ g ∈ gs, IsGame g) ∧
    ks = .matchLength :: List.replicate e .empty ++ gs.flatten

/-- What may follow what, read off the table: `none` is the beginning.  Empty lines may be anywhere. -/
def MayFollow : Option Kind → Kind → Prop
  | _, .empty => True
  | none, .matchLength => True
  | some .empty, .gameHeader => True
  | some .matchLength, .gameHeader => True
  | some .gameHeader, .playerHeader => True
  | some .playerHeader, .moves n => n = 1
  | some (.moves m), .moves n => n = m + 1
  | some (.moves _), .gameHeader => True
  | _, _ => False

/-- Each line may follow the one before. -/
def Chained : Option Kind → List Kind → Prop
  | _, [] => True
  | p, k :: ks => MayFollow p k ∧ Chained (some k) ks

/-- The lines without those that only tell the result. -/
def significant (ks : List Kind) : List Kind := ks.filter (· ≠ .result)

/-- The lines of a game that are not empty. -/
def written (g : List Line) : List Text := (g.filter fun l => l.kind ≠ .empty).map (·.text)

/-- What each line is taken for: nobody handles a line with a result, so it passes for whatever the line
before it was taken for; `none` is the beginning. -/
def takenFor : Option Kind → List Line → List (Option Kind × Text)
  | _, [] => []
  | p, l :: ls =>
    let q := if l.kind = .result then p else some l.kind
    (q, l.text) :: takenFor q ls

/-- The last line taken for the match length. -/
def lengthLine (rs : List (Option Kind × Text)) : Option Text :=
  ((rs.filter fun r => r.1 = some .matchLength).map (·.2)).getLast?

/-- The lines, cut before each one taken for the header of a game; those taken for the match length or for
an empty line are left out.  The first piece is what comes before any header. -/
def cutAtHeaders : List (Option Kind × Text) → List Text × List (List Text)
  | [] => ([], [])
  | (k, t) :: rs =>
    let (before, games) := cutAtHeaders rs
    if k = some .matchLength ∨ k = some .empty then (before, games)
    else if k = some .gameHeader then ([], (t :: before) :: games)
    else (t :: before, games)

/-- What comes before the first header goes to the first game; and is one if there are no games. -/
def choppedGames (rs : List (Option Kind × Text)) : List (List Text) :=
  match cutAtHeaders rs with
  | (before, []) => [before]
  | (before, g :: gs) => (before ++ g) :: gs

end Bglib.Spec
