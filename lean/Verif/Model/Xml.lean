import Verif.Model.Image
/-
Model of the text of trees (`ElementTree.xml`) and of the declarations of elements (`make_dtd`) in
`bglib/image/base.py`, with the file `bglib/image/backgammon.dtd`.
-/
namespace Bglib.Img
open Bglib

/-- `str(value)`, base.py:62-63.  A float is written as it was given. -/
def Value.text : Value → Text
  | .int n => pyStr n
  | .bool true => t!"True"
  | .bool false => t!"False"
  | .str t => t
  | .float t => t

/-- base.py:238-239, 202-203.  The order is that of the list; in Python that of a dictionary. -/
def attrsText (l : List (Text × Value)) : Text :=
  l.flatMap fun x => ' ' :: (x.1 ++ t!"=\"" ++ x.2.text ++ t!"\"")

/-- `' ' * n` -/
def spaces (n : Nat) : Text := List.replicate n ' '

mutual
/-- `format`, base.py:236-247.  Strings come before elements: all code that appends both does so in that order. -/
def Tree.format (indent : Nat) : Tree → Text
  | .node e ks =>
    spaces indent ++ '<' :: (e.name.text ++ (attrsText e.attrs ++ (t!">\n" ++
      (e.data.flatMap (fun d => spaces (indent + 2) ++ (d ++ ['\n'])) ++ (formatAll (indent + 2) ks ++
        (spaces indent ++ (t!"</" ++ (e.name.text ++ t!">\n"))))))))
def formatAll (indent : Nat) : List Tree → Text
  | [] => []
  | t :: ts => t.format indent ++ formatAll indent ts
end

/-- `dec_xml`, base.py:691-692 -/
def decXml : Text := t!"<?xml version=\"1.0\" encoding=\"us-ascii\" ?>\n"

/-- `dec_doctype`, base.py:694-695, 37-38 -/
def decDoctype : Text := t!"<!DOCTYPE board SYSTEM \"http://dtd.wxpygammon.org/backgammon.dtd\" >\n"

/-- `xml`, base.py:697-698 -/
def Tree.xmlText (t : Tree) : Text := decXml ++ (decDoctype ++ t.format 0)

/-! ### Declarations -/

/-- The declaration of an element: what it may contain, and its attributes. -/
structure Decl where
  name : Text
  content : List Text
  attrs : List Text
  deriving DecidableEq, Repr

/-- The names in `DTD_ATTLIST`, base.py:178-188 and the subclasses. -/
def attrNames (e : EName) : List Text :=
  [t!"x", t!"y", t!"width", t!"height", t!"image", t!"flip", t!"background", t!"color", t!"font", t!"mag"] ++
  match e with
  | .action | .score | .bar => [t!"player"]
  | .field => [t!"player", t!"text"]
  | .die => [t!"backgammon", t!"diestyle", t!"eyesize", t!"id"]
  | .cube => [t!"initialCube"]
  | .resign => [t!"player", t!"x_offset", t!"y_offset"]
  | .home => [t!"player", t!"fill"]
  | .chequer => [t!"player", t!"x_offset", t!"y_offset", t!"x_offset2", t!"y_offset2", t!"hide_count", t!"max_count"]
  | .point => [t!"fill", t!"parity"]
  | _ => []

/-- The declaration of an element class. -/
def EName.decl (e : EName) : Decl :=
  ⟨e.text, (if e.takes.2 then [t!"#PCDATA"] else []) ++ e.takes.1.map EName.text, attrNames e⟩

/-- The registered classes, base.py:319-679.  The order in Python is that of a dictionary. -/
def registered : List EName := [.board, .match, .action, .length, .crawford, .score, .position, .topFrame, .bottomFrame,
  .cubeholder, .field, .die, .cube, .resign, .home, .chequer, .bar, .point]

/-- `'|'.join` -/
def joinBar : List Text → Text
  | [] => []
  | [a] => a
  | a :: l => a ++ '|' :: joinBar l

/-- `CRLF.join` of the attributes, base.py:33, 300-303 -/
def joinLines : List Text → Text
  | [] => []
  | [a] => a
  | a :: l => a ++ '\n' :: joinLines l

/-- One round of the loop of `make_dtd`, base.py:30-34, 294-303 -/
def Decl.text (d : Decl) : Text :=
  t!"<!ELEMENT " ++ d.name ++ t!" (" ++ joinBar d.content ++ t!")* >\n<!ATTLIST " ++ d.name ++ t!" \n" ++
    joinLines (d.attrs.map fun a => t!"   " ++ a ++ t!" CDATA #IMPLIED") ++ t!"\n>\n"

/-- `make_dtd`, base.py:27-35, for the classes in some order -/
def makeDtd (l : List Decl) : Text := l.flatMap Decl.text

/-- The file `backgammon.dtd`, see `Check/Dtd`. -/
def shippedDtd : List Decl :=
  let base := [t!"color", t!"image", t!"flip", t!"height", t!"width", t!"background", t!"y", t!"x", t!"font"]
  let sized := [t!"x_offset", t!"color", t!"image", t!"flip", t!"height", t!"width", t!"y_offset", t!"background", t!"y", t!"x",
    t!"font"]
  [⟨t!"cube", [t!"#PCDATA"], base⟩,
   ⟨t!"bar", [t!"#PCDATA", t!"chequer"], t!"player" :: base⟩,
   ⟨t!"chequer", [t!"#PCDATA"], [t!"x_offset2", t!"x_offset", t!"player", t!"color", t!"image", t!"y_offset2", t!"flip",
     t!"hide_count", t!"height", t!"width", t!"max_count", t!"y_offset", t!"background", t!"y", t!"x", t!"font"]⟩,
   ⟨t!"point", [t!"#PCDATA", t!"chequer"], t!"parity" :: (base ++ [t!"fill"])⟩,
   ⟨t!"die", [t!"#PCDATA"], sized⟩,
   ⟨t!"chip", [t!"#PCDATA"], sized⟩,
   ⟨t!"cubeholder", [t!"#PCDATA", t!"cube", t!"chip"], base⟩,
   ⟨t!"field", [t!"#PCDATA", t!"die", t!"cube", t!"chip"], t!"player" :: base⟩,
   ⟨t!"length", [t!"#PCDATA"], base⟩,
   ⟨t!"score", [t!"#PCDATA"], t!"player" :: base⟩,
   ⟨t!"board", [t!"match", t!"position"], base⟩,
   ⟨t!"home", [t!"#PCDATA", t!"cube", t!"chequer"], t!"player" :: (base ++ [t!"fill"])⟩,
   ⟨t!"action", [t!"#PCDATA"], t!"player" :: base⟩,
   ⟨t!"position", [t!"cubeholder", t!"field", t!"home", t!"bar", t!"point"], base⟩,
   ⟨t!"crawford", [t!"#PCDATA"], base⟩,
   ⟨t!"match", [t!"action", t!"length", t!"crawford", t!"score"], base⟩]

end Bglib.Img
