import Verif.Model.Xml
/-
Reading XML, and when a document obeys declarations (C78, C79).
-/
namespace Bglib.Spec
open Bglib Bglib.Img

/-- An element as read: its name, its attributes, the lines of text in it without blanks around them, the elements
in it. -/
inductive Xml where
  | node (name : Text) (attrs : List (Text × Text)) (lines : List Text) (kids : List Xml)

def Xml.name : Xml → Text
  | .node n _ _ _ => n

/-- The signs of names. -/
def nameChar (c : Char) : Bool := c.isAlphanum || c = '_'

/-- A text with the references of XML replaced; `none` if there is any other `&`. -/
def unrefer : Text → Option Text
  | [] => some []
  | '&' :: 'l' :: 't' :: ';' :: r => (unrefer r).map ('<' :: ·)
  | '&' :: 'g' :: 't' :: ';' :: r => (unrefer r).map ('>' :: ·)
  | '&' :: 'a' :: 'm' :: 'p' :: ';' :: r => (unrefer r).map ('&' :: ·)
  | '&' :: 'q' :: 'u' :: 'o' :: 't' :: ';' :: r => (unrefer r).map ('"' :: ·)
  | '&' :: 'a' :: 'p' :: 'o' :: 's' :: ';' :: r => (unrefer r).map ('\'' :: ·)
  | c :: r => if c = '&' then none else (unrefer r).map (c :: ·)

/-- Attributes up to the end of the tag, and what follows.  The number bounds how many there are. -/
def readAttrs : Nat → Text → Option (List (Text × Text) × Text)
  | _, '>' :: r => some ([], r)
  | n + 1, ' ' :: r =>
    let name := r.takeWhile nameChar
    match r.dropWhile nameChar with
    | '=' :: '"' :: r =>
      let value := r.takeWhile (· ≠ '"')
      match r.dropWhile (· ≠ '"') with
      | '"' :: r =>
        if name = [] ∨ '<' ∈ value then none
        else do
          let v ← unrefer value
          let (l, rest) ← readAttrs n r
          return ((name, v) :: l, rest)
      | _ => none
    | _ => none
  | _, _ => none

/-- Tags, and lines of text. -/
inductive Piece where
  | start (name : Text) (attrs : List (Text × Text))
  | stop (name : Text)
  | line (t : Text)
  deriving DecidableEq, Repr

/-- The pieces of a document.  `<?…>` and `<!…>` are skipped.  The number bounds how many pieces there are. -/
def pieces : Nat → Text → Option (List Piece)
  | _, [] => some []
  | 0, _ => none
  | n + 1, '<' :: '?' :: r => pieces n ((r.dropWhile (· ≠ '>')).drop 1)
  | n + 1, '<' :: '!' :: r => pieces n ((r.dropWhile (· ≠ '>')).drop 1)
  | n + 1, '<' :: '/' :: r =>
    match r.dropWhile nameChar with
    | '>' :: rest => (pieces n rest).map (.stop (r.takeWhile nameChar) :: ·)
    | _ => none
  | n + 1, '<' :: r => do
    let (l, rest) ← readAttrs r.length (r.dropWhile nameChar)
    if r.takeWhile nameChar = [] ∨ ¬ (l.map Prod.fst).Nodup then none
    else (pieces n rest).map (.start (r.takeWhile nameChar) l :: ·)
  | n + 1, r =>
    let body := r.takeWhile fun c => c ≠ '<' ∧ c ≠ '\n'
    let rest := r.dropWhile fun c => c ≠ '<' ∧ c ≠ '\n'
    do
      let t ← unrefer body
      match rest with
      | '\n' :: rest => (pieces n rest).map (.line t :: ·)
      | rest => (pieces n rest).map (.line t :: ·)

/-- A line without blanks around it. -/
def trim (t : Text) : Text := ((t.dropWhile (· = ' ')).reverse.dropWhile (· = ' ')).reverse

/-- Adding a line of text to an element, unless it is blank. -/
def Xml.addLine (t : Text) : Xml → Xml
  | .node n a l k => .node n a (if trim t = [] then l else l ++ [trim t]) k

/-- Adding an element to an element. -/
def Xml.addKid : Xml → Xml → Xml
  | .node n a l k, x => .node n a l (k ++ [x])

/-- The document the pieces make: the elements that have begun, the innermost first, and the pieces to come.  There is
one outermost element, and nothing but blanks around it. -/
def assemble : List Xml → List Piece → Option Xml
  | st, .start n a :: r => assemble (.node n a [] [] :: st) r
  | [x], .stop n :: r =>
    if x.name = n ∧ (r.all fun p => match p with | .line t => trim t = [] | _ => false) then some x else none
  | x :: y :: st, .stop n :: r => if x.name = n then assemble (y.addKid x :: st) r else none
  | [], .line t :: r => if trim t = [] then assemble [] r else none
  | x :: st, .line t :: r => assemble (x.addLine t :: st) r
  | [], .stop _ :: _ => none
  | _, [] => none

/-- Reading a document. -/
def readXml (s : Text) : Option Xml := (pieces s.length s).bind (assemble [])

mutual
/-- What a document should tell of a tree. -/
def describe : Tree → Xml
  | .node e ks => .node e.name.text (e.attrs.map fun x => (x.1, x.2.text)) e.data (describeAll ks)
def describeAll : List Tree → List Xml
  | [] => []
  | t :: ts => describe t :: describeAll ts
end

/-- An element obeys declarations: it is declared, with its attributes, and contains only what may be in it; the
elements in it obey them too. -/
inductive Obeys (dtd : List Decl) : Xml → Prop where
  | node (d : Decl) (n : Text) (a : List (Text × Text)) (l : List Text) (k : List Xml) : d ∈ dtd → d.name = n →
      (∀ x ∈ a, x.1 ∈ d.attrs) → (l ≠ [] → t!"#PCDATA" ∈ d.content) → (∀ x ∈ k, x.name ∈ d.content) →
      (∀ x ∈ k, Obeys dtd x) → Obeys dtd (.node n a l k)

/-- Printable signs of us-ascii that stand for themselves in XML. -/
def plainChar (c : Char) : Bool := ' ' ≤ c && c ≤ '~' && c ≠ '"' && c ≠ '<' && c ≠ '&'

/-- A rule that sets attributes to such signs; the quotes around the names of images and fonts are taken off. -/
def PlainRule (r : Rule) : Bool :=
  r.css.all plainChar && r.block.all fun x =>
    x.2.all fun c => plainChar c || (c = '"' && (x.1 = t!"image" || x.1 = t!"font"))

end Bglib.Spec
