import Verif.Model.Doctree
/-
The words used in the statements about documents and HTML (C35, C36, C59, C60).
-/
namespace Bglib.Spec
open Bglib Bglib.Doc

/-- Every opening tag is closed by the closing tag of the same name, properly nested. -/
inductive Balanced : List Tok → Prop where
  | nil : Balanced []
  | text (t : Text) : Balanced [.text t]
  | single (t : Text) : Balanced [.single t]
  | wrap (t : Text) (b : List Tok) : Balanced b → Balanced (.opening t :: b ++ [.closing t])
  | append (a b : List Tok) : Balanced a → Balanced b → Balanced (a ++ b)

/-- Node `j` is a child of node `i`. -/
def ChildOf (e : Editor) (j i : Nat) : Prop := ∃ n : Node, e.nodes[i]? = some n ∧ j ∈ n.children

/-- The nodes form a tree: a child comes later than its parent (no cycles), exists, is child of one node
only and occurs once among its children. -/
structure IsTree (e : Editor) : Prop where
  root : ∃ n, e.nodes[0]? = some n ∧ n.klass = .root
  child : ∀ i j, ChildOf e j i → i < j ∧ j < e.nodes.length
  one : ∀ i i' j, ChildOf e j i → ChildOf e j i' → i = i'
  once : ∀ (i : Nat) (n : Node), e.nodes[i]? = some n → n.children.Nodup

/-- An operation that does not leave the root, does not make another root and removes nothing. -/
def Keeps : Op → Prop
  | .enter k | .append k => k ≠ .root
  | .leave k => Klass.root.isA k = false
  | .remove _ => False
  | _ => True

/-- The text of a node and what is below it, in the order of the document. -/
def textOf (e : Editor) : Nat → Nat → Text
  | 0, _ => []
  | fuel + 1, i =>
    match e.nodes[i]? with
    | none => []
    | some n => n.text ++ (n.children.map (textOf e fuel)).flatten

/-- The text of the document. -/
def content (e : Editor) : Text := textOf e (e.nodes.length + 1) 0

/-- The text between the tags. -/
def shown : List Tok → Text
  | [] => []
  | .text t :: ts => t ++ shown ts
  | _ :: ts => shown ts

/-- Text without its line ends. -/
def withoutEnds (t : Text) : Text := t.filter (· ≠ '\n')

/-- The text given to the editor. -/
def typed : List Op → Text
  | [] => []
  | .text t :: os => t ++ typed os
  | _ :: os => typed os

/-- A new node is accepted by the current node: nothing is left implicitly. -/
def Direct (e : Editor) : Op → Prop
  | .enter k | .append k => k ≠ .text ∧ ∃ c n, e.current = some c ∧ e.nodes[c]? = some n ∧ n.klass.accepts k = true
  | .leave _ | .text _ => True
  | .remove _ | .done => False

/-- All operations are such. -/
def AllDirect : Editor → List Op → Prop
  | _, [] => True
  | e, o :: os => Direct e o ∧ ∀ e', e.apply o = .ok e' → AllDirect e' os

/-- The characters of escaped text, with the entities undone. -/
def unescape : Text → Text
  | '&' :: 'l' :: 't' :: ';' :: r => '<' :: unescape r
  | '&' :: 'g' :: 't' :: ';' :: r => '>' :: unescape r
  | '&' :: 'a' :: 'm' :: 'p' :: ';' :: r => '&' :: unescape r
  | c :: r => c :: unescape r
  | [] => []

/-- Text that can stand between tags: no angle brackets, and `&` only in one of the three entities. -/
inductive SafeText : Text → Prop where
  | nil : SafeText []
  | lt (r : Text) : SafeText r → SafeText (t!"&lt;" ++ r)
  | gt (r : Text) : SafeText r → SafeText (t!"&gt;" ++ r)
  | amp (r : Text) : SafeText r → SafeText (t!"&amp;" ++ r)
  | plain (c : Char) (r : Text) : c ≠ '<' → c ≠ '>' → c ≠ '&' → SafeText r → SafeText (c :: r)

end Bglib.Spec
