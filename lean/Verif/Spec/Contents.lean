import Verif.Spec.Document
import Verif.Model.Contents
/-
Tables of contents (C99).
-/
namespace Bglib.Spec.Contents
open Bglib Bglib.Doc

/-- The items of lists in a page with the number of lists around them and their texts, from inside `depth` lists and, in an
item, with its text so far. -/
def itemsIn (depth : Nat) (item : Option Text) : List Tok → List (Nat × Text)
  | [] => []
  | .opening t :: r =>
    if t = t!"ol" then itemsIn (depth + 1) item r
    else if t = t!"li" then itemsIn depth (some []) r
    else itemsIn depth item r
  | .closing t :: r =>
    if t = t!"ol" then itemsIn (depth - 1) item r
    else if t = t!"li" then (depth, item.getD []) :: itemsIn depth none r
    else itemsIn depth item r
  | .single _ :: r => itemsIn depth item r
  | .text u :: r => itemsIn depth (item.map (· ++ u)) r

/-- The text on a page. -/
def textOf : List Tok → Text
  | [] => []
  | .text t :: r => t ++ textOf r
  | _ :: r => textOf r

/-- Numbers that links refer to. -/
def links (p : List PageMark) : List Nat := p.flatMap fun
  | .contents l => l
  | .heading _ => []

/-- The headings, with the numbers in their ids. -/
def targets (p : List PageMark) : List (Option Nat) := p.filterMap fun
  | .contents _ => none
  | .heading i => some i

/-- The link with number `k` leads to the `k`-th heading, and nowhere else. -/
def Leads (p : List PageMark) : Prop := ∀ k ∈ links p, ∀ j, (targets p)[j]? = some (some k) ↔ j = k

/-- No heading stands in front of the first table of contents. -/
def ContentsFirst : List PageMark → Prop
  | [] => True
  | .contents _ :: _ => True
  | .heading _ :: r => ∀ l, .contents l ∉ r

/-- What a heading is made of that the table of contents can show: texts, and links with a text. -/
def Simple (w : Wiki) (i : Nat) : Prop :=
  ∀ n, w.doc.nodes[i]? = some n → ∀ j ∈ n.children, ∃ m, w.doc.nodes[j]? = some m ∧
    ((m.klass = .text ∧ m.children = []) ∨ (m.klass = .anchor ∧ ∃ k t, m.children = [k] ∧ w.doc.nodes[k]? = some t ∧ t.klass = .text ∧ t.children = []))

/-- The headings in the order of the page. -/
def headingNodes (w : Wiki) : List Nat := w.order.filter w.isHeading

/-- How many lists there are around the entry of a heading: one for `=`, two for `==`, three for `===`. -/
def depthOf (w : Wiki) (i : Nat) : Nat :=
  match (w.doc.nodes[i]?).map Node.klass with
  | some .h1 => 1
  | some .h2 => 2
  | some .h3 => 3
  | _ => 0

/-- The text a node shows on the page. -/
def textAt (w : Wiki) (env : Env) (i : Nat) : Text :=
  match w.accept env (w.doc.nodes.length + 2) i with
  | .ok b => textOf b
  | .error _ => []

/-- The headings have only texts and links in them, whatever the links contain. -/
def Plainly (w : Wiki) : Prop := ∀ i ∈ headingNodes w, ∀ n, w.doc.nodes[i]? = some n → ∀ j ∈ n.children,
  ∃ m, w.doc.nodes[j]? = some m ∧ (m.klass = .text ∨ m.klass = .anchor)

end Bglib.Spec.Contents
