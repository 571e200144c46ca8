import Verif.Model.TestWriter
/-
How a file with the tests of a style is read (C88): which methods it has, which position each of them loads, and which
file it compares the result with.
-/
namespace Bglib.Spec
open Bglib.TestWriter

/-- What stands between a beginning and an end of a line. -/
def between (first last line : Text) : Option Text :=
  if first.isPrefixOf line && last.reverse.isPrefixOf (line.drop first.length).reverse then
    some ((line.drop first.length).take (line.length - first.length - last.length))
  else none

/-- The kinds of tests. -/
inductive TestKind where
  | tree
  | image
deriving DecidableEq, Repr

/-- One test: its kind, its name, the IDs it loads, and the name of the file it compares with. -/
structure TestCase where
  kind : TestKind
  name : Text
  pid : Text
  mid : Text
  file : Text
deriving DecidableEq, Repr

/-- What a line of the file says. -/
inductive Said where
  | method (kind : TestKind) (name : Text)
  | load (pid mid : Text)
  | file (name : Text)
  | other
deriving DecidableEq, Repr

/-- Reading a line. -/
def said (line : Text) : Said :=
  match between t!"  def " t!"_tree_test(self):" line with
  | some n => .method .tree n
  | none =>
    match between t!"  def " t!"_image_test(self):" line with
    | some n => .method .image n
    | none =>
      match between t!"    load(self.b, pid='" t!"')" line with
      | some ids => .load (ids.takeWhile (· ≠ '\'')) ((ids.dropWhile (· ≠ '\'')).drop t!"', mid='".length)
      | none =>
        match between t!"    self.assertEqual(str(tree), get_xml('" t!"'), 'xml mismatch')" line with
        | some n => .file n
        | none =>
          match between t!"    ans = get_image('" t!"')" line with
          | some n => .file n
          | none => .other

/-- The tests in what the lines say: a method, then the position it loads, then the file it compares with. -/
def collect : Option (TestKind × Text) → Option (Text × Text) → List Said → List TestCase
  | _, _, [] => []
  | _, _, .method k n :: ls => collect (some (k, n)) none ls
  | m, _, .load p i :: ls => collect m (some (p, i)) ls
  | some (k, n), some (p, i), .file f :: ls => ⟨k, n, p, i, f⟩ :: collect none none ls
  | m, p, .file _ :: ls => collect m p ls
  | m, p, .other :: ls => collect m p ls

/-- The tests of a file. -/
def testsOf (file : Text) : List TestCase := collect none none ((splitNl file).map said)

/-- The two tests of a listed position. -/
def bothTests (t : Text × Text × Text) : List TestCase :=
  [⟨.tree, t.1, t.2.1, t.2.2, t.1⟩, ⟨.image, t.1, t.2.1, t.2.2, t.1⟩]

/-- The methods in the lines of a file, each with the class in which it is defined.  A line `class …:` begins a class,
which goes on as long as lines are indented or empty. -/
def classMethods : Option Text → List Text → List (Text × Text)
  | _, [] => []
  | c, l :: ls =>
    match between t!"class " t!":" l with
    | some k => classMethods (some k) ls
    | none =>
      match c with
      | none => classMethods none ls
      | some k =>
        match between t!"  def " t!"(self):" l with
        | some n => (k, n) :: classMethods (some k) ls
        | none => if l = [] ∨ l.head? = some ' ' then classMethods (some k) ls else classMethods none ls

/-- The names under which the tests of a listed position are methods. -/
def testNames (t : Text × Text × Text) : List Text := [t.1 ++ t!"_tree_test", t.1 ++ t!"_image_test"]

/-- A text that can stand between single quotation marks on a line. -/
def OneLine (t : Text) : Prop := '\n' ∉ t ∧ '\'' ∉ t

end Bglib.Spec
