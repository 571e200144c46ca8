import Verif.Model.Css
import Verif.Model.GnubgId
/-
Comparing the model with results recorded by the authors: the files `bglib/image/resource/<style>/test/*.xml`
are trees of elements the library made from GNU IDs with a style sheet (testwriter.py:8-37).

A tree is written as a text with the attributes of each element in order of their names (the order in the files is
that of a Python dictionary), and the texts are compared by a digest: the text as a number in base 256, modulo
2^255 - 19.  The digests in `Verif/Check/Trees` were calculated from the files by a Python script, not from the
model; the directory in front of `bglib/image/resource` was left out of paths of images and fonts.
-/
namespace Bglib.Check
open Bglib Bglib.Img

/-- The order of names. -/
def nameLt : Text → Text → Bool
  | _, [] => false
  | [], _ :: _ => true
  | a :: x, b :: y => if a = b then nameLt x y else decide (a.toNat < b.toNat)

def insertAttr (a : Text × Value) : List (Text × Value) → List (Text × Value)
  | [] => [a]
  | b :: l => if nameLt a.1 b.1 then a :: b :: l else b :: insertAttr a l

def valueText : Value → Text
  | .int n => pyStr n
  | .bool true => t!"True"
  | .bool false => t!"False"
  | .str t => t
  | .float t => t

def step (a : Nat) (c : Char) : Nat := (a * 256 + c.toNat) % (2 ^ 255 - 19)

/-- The digest of a text behind another one. -/
def feed (a : Nat) (t : Text) : Nat := t.foldl step a

mutual
/-- The digest of `<name attr=value …>text child … /`. -/
def digest (a : Nat) : Tree → Nat
  | .node e ks =>
    let a := feed (feed a t!"<") e.name.text
    let a := (e.attrs.foldr insertAttr []).foldl (fun a x => feed (feed (feed (feed a t!" ") x.1) t!"=") (valueText x.2)) a
    feed (digests (e.data.foldl feed (feed a t!">")) ks) t!"/"
def digests (a : Nat) : List Tree → Nat
  | [] => a
  | k :: ks => digests (digest a k) ks
end

/-- The tree of a position ID and a match ID with some rules, as testwriter.py makes it. -/
def treeOf (rules : List Rule) (pid mid : Text) : Py Tree :=
  let r := gnubgDecode {} pid mid
  match r.err with
  | some e => .error e
  | none => match ETree.create.set r.board with
    | .error x => .error x
    | .ok t => t.board.styled rules []

/-- The model makes the recorded trees: position ID, match ID and digest of the file. -/
def reproduces (rules : List Rule) (l : List (Text × Text × Nat)) : Bool :=
  l.all fun x => match treeOf rules x.1 x.2.1 with
    | .ok t => digest 0 t == x.2.2
    | .error _ => false

end Bglib.Check
