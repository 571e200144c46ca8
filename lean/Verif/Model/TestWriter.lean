import Verif.Model.Regex
/-
Model of `bglib/image/testwriter.py`, the program that writes the tests of a style, and of `string.Template` of Python's
library as far as it uses it.
-/
namespace Bglib.TestWriter
open Bglib

/-! ### `string.Template` -/

/-- `[_a-z]` without regard to case, the first sign of a name in a template -/
def nameStart (c : Char) : Bool := c == '_' || ('a' ≤ c && c ≤ 'z') || ('A' ≤ c && c ≤ 'Z')

/-- `[_a-z0-9]` without regard to case -/
def nameChar (c : Char) : Bool := nameStart c || ('0' ≤ c && c ≤ '9')

/-- A dollar sign and what follows it: the name and the rest, with braces or without; `none` if it is no name. -/
def named : Text → Option (Text × Text)
  | '{' :: c :: r =>
    if nameStart c then
      match (c :: r).dropWhile nameChar with
      | '}' :: rest => some ((c :: r).takeWhile nameChar, rest)
      | _ => none
    else none
  | c :: r => if nameStart c then some ((c :: r).takeWhile nameChar, (c :: r).dropWhile nameChar) else none
  | [] => none

/-- The parts of a template: signs, names, and dollar signs without a name. -/
inductive Piece where
  | sign (c : Char)
  | name (n : Text)
  | bad
deriving DecidableEq, Repr

/-- A template cut into its parts; `fuel` is at least the length of the text. -/
def piecesGo : Nat → Text → List Piece
  | _, [] => []
  | 0, _ => []
  | fuel + 1, c :: r =>
    if c = '$' then
      match r with
      | '$' :: r => .sign '$' :: piecesGo fuel r
      | r =>
        match named r with
        | none => .bad :: piecesGo fuel r
        | some (n, rest) => .name n :: piecesGo fuel rest
    else .sign c :: piecesGo fuel r

@[inherit_doc piecesGo]
def pieces (t : Text) : List Piece := piecesGo t.length t

/-- The values in place of the names.  A name not given is a `KeyError`, a dollar sign without a name a `ValueError`. -/
def fill (env : Text → Option Text) : List Piece → Py Text
  | [] => .ok []
  | .sign c :: ps => do
    let r ← fill env ps
    return c :: r
  | .name n :: ps =>
    match env n with
    | none => .error .keyError
    | some v => do
      let r ← fill env ps
      return v ++ r
  | .bad :: _ => .error .valueError

/-- `Template(t).substitute(**env)` -/
def substitute (env : Text → Option Text) (t : Text) : Py Text := fill env (pieces t)

/-! ### the writer -/

/-- `css=css` -/
def cssEnv (css : Text) (n : Text) : Option Text := if n = t!"css" then some css else none

/-- `name=name, pid=pid, mid=mid` -/
def methodEnv (name pid mid : Text) (n : Text) : Option Text :=
  if n = t!"name" then some name else if n = t!"pid" then some pid else if n = t!"mid" then some mid else none

/-- testwriter.py:42-58 -/
def headerTemplate : Text :=
  t!"#!/usr/bin/env python\n" ++
  t!"# encoding us-ascii\n" ++
  t!"# this file is generated by bglib/image/testwrite.py\n" ++
  t!"\n" ++
  t!"import os.path\n" ++
  t!"import unittest\n" ++
  t!"import Image\n" ++
  t!"import bglib.model.board\n" ++
  t!"import bglib.model.boardeditor\n" ++
  t!"import bglib.encoding.gnubgid\n" ++
  t!"import bglib.image.css\n" ++
  t!"from bglib.image.resource.${css} import css\n" ++
  t!"from bglib.image.resource.${css} import draw\n" ++
  t!"from bglib.image.resource.${css} import testdatapath\n" ++
  t!"\n"

/-- testwriter.py:63-70 -/
def klassTemplate : Text :=
  t!"class theTest(unittest.TestCase):\n" ++
  t!"  def setUp(self):\n" ++
  t!"    self.b = bglib.model.boardeditor.BoardEditor()\n" ++
  t!"    \n" ++
  t!"  def tearDown(self):\n" ++
  t!"    pass\n"

/-- testwriter.py:75-109 -/
def helperTemplate : Text :=
  t!"\n" ++
  t!"def load(b, pid, mid):\n" ++
  t!"  bglib.encoding.gnubgid.decode(b, pid, mid)\n" ++
  t!"\n" ++
  t!"def get_image(name):\n" ++
  t!"  return Image.open(os.path.join(testdatapath, name + '.png'))\n" ++
  t!"\n" ++
  t!"def make_image(name, pid, mid):\n" ++
  t!"  b = bglib.model.boardeditor.BoardEditor()\n" ++
  t!"  load(b, pid, mid)\n" ++
  t!"  image = draw.draw(b, (1000, 800))\n" ++
  t!"  image.save(os.path.join(testdatapath, '%s.png'%name))\n" ++
  t!"\n" ++
  t!"def get_xml(name):\n" ++
  t!"  f = file(os.path.join(testdatapath, name+'.xml'), 'r')\n" ++
  t!"  try:\n" ++
  t!"    return f.read()\n" ++
  t!"  finally:\n" ++
  t!"    f.close()\n" ++
  t!"\n" ++
  t!"def make_tree(b):\n" ++
  t!"  tree = bglib.image.base.ElementTree(b)\n" ++
  t!"  css.apply(tree)\n" ++
  t!"  return tree\n" ++
  t!"  \n" ++
  t!"def make_xml(name, pid, mid):\n" ++
  t!"  b = bglib.model.boardeditor.BoardEditor()\n" ++
  t!"  load(b, pid, mid)\n" ++
  t!"  tree = make_tree(b)\n" ++
  t!"  f = file(os.path.join(testdatapath, '%s.xml'%name), 'w')\n" ++
  t!"  f.write(str(tree))\n" ++
  t!"  f.close()\n" ++
  t!"\n"

/-- testwriter.py:114-128 -/
def methodTemplate : Text :=
  t!"  def ${name}_tree_test(self):\n" ++
  t!"    \"\"\" tree test for ${name} pid='${pid}', mid='${mid}'\"\"\"\n" ++
  t!"    load(self.b, pid='${pid}', mid='${mid}')\n" ++
  t!"    tree = make_tree(self.b)\n" ++
  t!"    self.assertEqual(str(tree), get_xml('${name}'), 'xml mismatch')\n" ++
  t!"    \n" ++
  t!"  def ${name}_image_test(self):\n" ++
  t!"    \"\"\" image test for ${name} pid='${pid}', mid='${mid}'\"\"\"\n" ++
  t!"    load(self.b, pid='${pid}', mid='${mid}')\n" ++
  t!"    image = draw.draw(self.b, (1000, 800))\n" ++
  t!"    ans = get_image('${name}')\n" ++
  t!"    self.assertEqual(image.tostring(), ans.tostring(), 'image mismatch')\n" ++
  t!"    \n"

/-- testwriter.py:133-144 -/
def footerTemplate : Text :=
  t!"if __name__ == '__main__':\n" ++
  t!"  from bglib.image.testwriter import tests\n" ++
  t!"  try:\n" ++
  t!"    os.makedirs(testdatapath)\n" ++
  t!"  except OSError:\n" ++
  t!"    pass\n" ++
  t!"  for name, (pid, mid) in tests.items():\n" ++
  t!"    make_xml(name, pid, mid)\n" ++
  t!"    make_image(name, pid, mid)\n" ++
  t!"  pass\n"

/-- testwriter.py:59-60 -/
def makeHeader (css : Text) : Py Text := substitute (cssEnv css) headerTemplate

/-- testwriter.py:71-72 -/
def makeClass (css : Text) : Py Text := substitute (cssEnv css) klassTemplate

/-- testwriter.py:110-111 -/
def makeHelper (css : Text) : Py Text := substitute (cssEnv css) helperTemplate

/-- testwriter.py:129-130 -/
def makeMethod (name pid mid : Text) : Py Text := substitute (methodEnv name pid mid) methodTemplate

/-- testwriter.py:145-146 -/
def makeFooter (css : Text) : Py Text := substitute (cssEnv css) footerTemplate

/-- The list comprehension of testwriter.py:152 and the join; `tests` are the items of the dictionary in its order. -/
def makeMethods : List (Text × Text × Text) → Py Text
  | [] => .ok []
  | (name, pid, mid) :: ts => do
    let m ← makeMethod name pid mid
    let ms ← makeMethods ts
    return m ++ ms

/-- `write`, testwriter.py:148-156: the text written. -/
def write (tests : List (Text × Text × Text)) (css : Text) : Py Text := do
  let header ← makeHeader css
  let helper ← makeHelper css
  let klass ← makeClass css
  let methods ← makeMethods tests
  let footer ← makeFooter css
  if header ++ helper ++ klass ++ methods ++ footer = [] then .error .assertion
  else return header ++ helper ++ klass ++ methods ++ footer

/-- `tests`, testwriter.py:11-38, in the order of the file -/
def tests : List (Text × Text × Text) :=
  [(t!"a", t!"4Dl4ADqwt4MDIA", t!"MBmgAAAAAAAA"),
   (t!"b", t!"4Dl4ADqwt4MDIA", t!"AQGgAAAAAAAA"),
   (t!"c", t!"22wqECCw8+ABYA", t!"UQmgAAAAAAAA"),
   (t!"d", t!"4HPiASHgc/ABMA", t!"UQn1AAAAAAAA"),
   (t!"e", t!"4HPKATDgc/ABMA", t!"cAngAAAAAAAA"),
   (t!"f", t!"mGfwATDgc/ABMA", t!"cCOgAAAAAAAA"),
   (t!"g", t!"mGfwATDgc/ABMA", t!"cEOgAAAAAAAA"),
   (t!"h", t!"mGfwATDgc/ABMA", t!"cGOgAAAAAAAA"),
   (t!"i", t!"PwkAACoBAAAAAA", t!"cAn2AAAAAAAA"),
   (t!"j", t!"FwAA4CcBAAAAAA", t!"MAH2AAAAAAAA"),
   (t!"k", t!"4HPiASHgc/ABMA", t!"UQn1AAAAAAAA"),
   (t!"l", t!"NgAAACAEAAAAAA", t!"cAnyAAAAAAAA"),
   (t!"m", t!"4PPIQRCYc4sBMA", t!"8Am1AEAAAAAA"),
   (t!"n", t!"284lIADf7QAAYA", t!"8Im1AEAAAAAA"),
   (t!"o", t!"AAAAgAAAAAAAAA", t!"cAqgAFAAAAAA"),
   (t!"q", t!"2ObIAEpDu5EBKA", t!"cInsAFAAIAAA"),
   (t!"r", t!"AAAAAAAAAAAAAA", t!"AAAAAAAAAAAA"),
   (t!"s", t!"AAAAwOfgA2AAAA", t!"cAk7AAAAAAAA"),
   (t!"t", t!"AAAAwOfgA2AAAA", t!"cAkgAAAAAAAA"),
   (t!"u", t!"AAAAwLeDgwEAAA", t!"cAk7AAAAAAAA"),
   (t!"v", t!"4HPhASjgc/ABMA", t!"MAmgAAAAAAAA"),
   (t!"rolled_31", t!"vzsAAFhu2xFABA", t!"QYksASAAIAAA"),
   (t!"rolled_52", t!"vzsAAFhu2xFABA", t!"QYkqASAAIAAA"),
   (t!"rolled_64", t!"vzsAAFhu2xFABA", t!"QQkzASAAIAAA")]

/-! ### the tests of the writer -/

/-- `s.split('\n')` -/
def splitNl : Text → List Text
  | [] => [[]]
  | c :: r =>
    if c = '\n' then [] :: splitNl r
    else match splitNl r with
      | [] => [[c]]
      | l :: ls => (c :: l) :: ls

/-- The loop of `assertLinesEqual`, testwriter.py:167-168: `ys[i]` of a list that is too short is an `IndexError`. -/
def sameLines : List Text → List Text → Py Unit
  | [], _ => .ok ()
  | _ :: _, [] => .error .indexError
  | x :: xs, y :: ys => if x = y then sameLines xs ys else .error .assertion

/-- `assertLinesEqual`, testwriter.py:165-168 -/
def assertLinesEqual (xs ys : Text) : Py Unit := sameLines (splitNl xs) (splitNl ys)

/-- What `header_test` expects, testwriter.py:251-264 -/
def expectedHeader : Text :=
  t!"#!/usr/bin/env python\n" ++
  t!"# encoding us-ascii\n" ++
  t!"# this file is generated by bglib/image/testwrite.py\n" ++
  t!"\n" ++
  t!"import os.path\n" ++
  t!"import unittest\n" ++
  t!"import Image\n" ++
  t!"import bglib.model.board\n" ++
  t!"import bglib.encoding.gnubgid\n" ++
  t!"import bglib.image.css\n" ++
  t!"from bglib.image.resource.matrix import css\n" ++
  t!"from bglib.image.resource.matrix import draw\n" ++
  t!"from bglib.image.resource.matrix import testdatapath\n" ++
  t!"\n"

/-- `header_test`, testwriter.py:248-265 -/
def headerTest : Py Unit := do
  let h ← makeHeader t!"matrix"
  assertLinesEqual h expectedHeader

end Bglib.TestWriter
