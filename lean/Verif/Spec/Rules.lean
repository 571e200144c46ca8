/-
The rules of backgammon for one chequer movement, written from the rule book and independent of the
model.  `mine` and `theirs` are rows of 25 counts, each seen from its own side: index 0 is the ace
point, 23 the far end, 24 the bar.  My point `p` is the opponent's point `23 - p`.
-/
namespace Bglib.Spec

/-- Count on a point; outside the row there is nothing. -/
def cnt (r : List Int) (i : Nat) : Int := r.getD i 0

/-- A physically possible row: 25 places, no negative count. -/
def Row (r : List Int) : Prop := r.length = 25 ∧ ∀ i, 0 ≤ cnt r i

/-- Number of chequers in a row. -/
def total (r : List Int) : Int := r.foldr (· + ·) 0

/-- All remaining chequers are in the home board (points 0..5). -/
def allHome (r : List Int) : Prop := ∀ i, 6 ≤ i → cnt r i = 0

/-- Moving one chequer from `src` to the board point `dest` with `die` is legal; `hit` says that a blot
is sent to the bar. -/
def LegalMove (mine theirs : List Int) (die src dest : Int) (hit : Bool) : Prop :=
  1 ≤ die ∧ die ≤ 6 ∧ 0 ≤ dest ∧ src ≤ 24 ∧ dest = src - die ∧
  1 ≤ cnt mine src.toNat ∧ (cnt mine 24 ≠ 0 → src = 24) ∧
  cnt theirs (23 - dest).toNat < 2 ∧ (hit = true ↔ cnt theirs (23 - dest).toNat = 1)

/-- Bearing off one chequer from `src` with `die` is legal: all home, and the die is exact or larger
with nothing on a higher point. -/
def LegalBearoff (mine : List Int) (die src : Int) : Prop :=
  1 ≤ die ∧ die ≤ 6 ∧ 0 ≤ src ∧ src ≤ 5 ∧ 1 ≤ cnt mine src.toNat ∧ allHome mine ∧
  (src + 1 = die ∨ (src + 1 < die ∧ ∀ i : Nat, src < i → cnt mine i = 0))

/-- A legal movement of one chequer; `dest = -1` means off the board. -/
def LegalStep (mine theirs : List Int) (die src dest : Int) (hit : Bool) : Prop :=
  LegalMove mine theirs die src dest hit ∨ (dest = -1 ∧ hit = false ∧ LegalBearoff mine die src)

/-- What a movement does to the mover's row, place by place. -/
def moverAfter (mine : List Int) (src dest : Int) (i : Nat) : Int :=
  cnt mine i - (if (i : Int) = src then 1 else 0) + (if (i : Int) = dest then 1 else 0)

/-- What a movement does to the opponent's row, place by place. -/
def otherAfter (theirs : List Int) (dest : Int) (hit : Bool) (i : Nat) : Int :=
  cnt theirs i - (if hit = true ∧ (i : Int) = 23 - dest then 1 else 0)
    + (if hit = true ∧ i = 24 then 1 else 0)

end Bglib.Spec
