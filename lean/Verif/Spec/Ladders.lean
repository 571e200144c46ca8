import Verif.Spec.Reading
/-
How deep items are that are indented by any numbers of spaces (C94).
-/
namespace Bglib.Spec.Document

/-- The depths of the items that are open, from the innermost, behind an item that is indented by `d` spaces, where those before
it had the depths `s`: it is inside an item that is less deep than `d`; otherwise it is beside the innermost of those which are
not deeper than `d`; if all are deeper, it is beside none of them. -/
def joined (s : List Nat) (d : Nat) : List Nat :=
  match s with
  | [] => [d]
  | e :: _ => if e < d then d :: s else match s.dropWhile (d < ·) with
    | [] => [d]
    | t => t

/-- The depths of items behind items of the depths `s`, given by how many spaces they are indented. -/
def nested (s : List Nat) : List Nat → List Nat
  | [] => []
  | d :: ds => (joined s d).headD 0 :: nested (joined s d) ds

end Bglib.Spec.Document
