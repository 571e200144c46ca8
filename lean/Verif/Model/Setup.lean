import Verif.Model.HtmlCompare
/-
Model of `make_setup.py`, the program that writes the script with which the library is installed.  Texts are byte strings.
-/
namespace Bglib.Setup
open Bglib

/-- `str.format` with keyword arguments, on templates whose fields are plain names (no attributes, conversions or
specifications, of which the template here has none).  The first argument gives the name being read, backwards, inside of a field. -/
def format (env : Text → Option Text) : Option Text → Text → Py Text
  | none, [] => .ok []
  | some _, [] => .error .valueError
  | none, '{' :: '{' :: r => do return '{' :: (← format env none r)
  | none, '}' :: '}' :: r => do return '}' :: (← format env none r)
  | none, '}' :: _ => .error .valueError
  | none, '{' :: r => format env (some []) r
  | none, c :: r => do return c :: (← format env none r)
  | some name, '}' :: r =>
    match env name.reverse with
    | none => .error .keyError
    | some v => do return v ++ (← format env none r)
  | some name, c :: r => format env (some (c :: name)) r

/-- A digit of `\xhh`. -/
def hexChar (n : Nat) : Char := if n < 10 then Char.ofNat (48 + n) else Char.ofNat (87 + n)

/-- A character in `repr` of a string between the marks `q`. -/
def reprChar (q c : Char) : Text :=
  if c = q ∨ c = '\\' then ['\\', c]
  else if c = '\t' then t!"\\t"
  else if c = '\n' then t!"\\n"
  else if c = '\r' then t!"\\r"
  else if c.toNat < 32 ∨ 127 ≤ c.toNat then ['\\', 'x', hexChar (c.toNat / 16), hexChar (c.toNat % 16)]
  else [c]

/-- `repr` of a string: between apostrophes, unless it has some and no quotation marks. -/
def reprText (t : Text) : Text :=
  let q := if '\'' ∈ t ∧ '"' ∉ t then '"' else '\''
  q :: t.flatMap (reprChar q) ++ [q]

/-- `str` of a list of strings. -/
def reprList : List Text → Text
  | [] => t!"[]"
  | x :: xs => '[' :: reprText x ++ (xs.flatMap fun y => t!", " ++ reprText y) ++ t!"]"

/-- `readlines`: the lines with their ends; `acc` is the line being read, backwards. -/
def readLines (acc : Text) : Text → List Text
  | [] => if acc = [] then [] else [acc.reverse]
  | c :: r => if c = '\n' then (c :: acc).reverse :: readLines [] r else readLines (c :: acc) r

/-- The files read, make_setup.py:13-17. -/
structure Files where
  version : Text
  description : Text
  freeze : Text

/-- `d`, make_setup.py:9-18, as `format` shows its values. -/
def metadata (f : Files) (key : Text) : Option Text :=
  if key = t!"NAME" then some t!"python-bglib-library"
  else if key = t!"AUTHOR" then some t!"Noriyuki Hosaka"
  else if key = t!"AUTHOR_EMAIL" then some t!"bgnori@gmail.com"
  else if key = t!"VERSION" then some (Doc.strip f.version)
  else if key = t!"HOMEPAGE" then some t!"https://github.com/bgnori/bglib"
  else if key = t!"DESCRIPTION" then some t!"backgammon programming utilities for python"
  else if key = t!"LONG_DESCRIPTION" then some f.description
  else if key = t!"install_requires" then some (reprList (readLines [] f.freeze))
  else none

/-- `setup_str`, make_setup.py:22-88 -/
def template : Text :=
  t!"#!/usr/bin/python\n" ++
  t!"# -*- coding: us-ascii -*-\n" ++
  t!"# vim: syntax=python\n" ++
  t!"#\n" ++
  t!"# Copyright 2006-2012 Noriyuki Hosaka bgnori@gmail.com\n" ++
  t!"#\n" ++
  t!"\n" ++
  t!"from setuptools import setup\n" ++
  t!"import os.path\n" ++
  t!"\n" ++
  t!"\n" ++
  t!"try:\n" ++
  t!"    # add classifiers and download_url syntax to distutils\n" ++
  t!"    from distutils.dist import DistributionMetadata\n" ++
  t!"    DistributionMetadata.classifiers = None\n" ++
  t!"    DistributionMetadata.download_url = None\n" ++
  t!"except:\n" ++
  t!"    pass\n" ++
  t!"\n" ++
  t!"setup(\n" ++
  t!"  name=\"{NAME}\",\n" ++
  t!"  version=\"{VERSION}\",\n" ++
  t!"  zip_safe=False,\n" ++
  t!"  description=\"\"\"{DESCRIPTION}\"\"\",\n" ++
  t!"  long_description=\"\"\"{LONG_DESCRIPTION}\"\"\",\n" ++
  t!"  author=\"{AUTHOR}\",\n" ++
  t!"  author_email=\"{AUTHOR_EMAIL}\",\n" ++
  t!"  package_dir = {{\n" ++
  t!"                 'bglib':'bglib', #root\n" ++
  t!"                 }},\n" ++
  t!"  packages = ['bglib', \n" ++
  t!"              'bglib.doc', \n" ++
  t!"              'bglib.encoding', \n" ++
  t!"              'bglib.image', \n" ++
  t!"              'bglib.image.resource', \n" ++
  t!"              'bglib.model',\n" ++
  t!"              'bglib.protocol'\n" ++
  t!"              ],\n" ++
  t!"  package_data = {{\n" ++
  t!"      'bglib.image.resource':[os.path.join('matrix','default.css'),\n" ++
  t!"                              os.path.join('matrix','*.png'),\n" ++
  t!"                              os.path.join('minimal','*.ttf'),\n" ++
  t!"                              os.path.join('minimal','default.css'),\n" ++
  t!"                              os.path.join('kotobuki','*.ttf'),\n" ++
  t!"                              os.path.join('kotobuki','default.css'),\n" ++
  t!"                              os.path.join('nature','*.ttf'),\n" ++
  t!"                              os.path.join('nature','default.css'),\n" ++
  t!"                              os.path.join('flower','*.ttf'),\n" ++
  t!"                              os.path.join('flower','default.css'),\n" ++
  t!"                              os.path.join('neon','*.ttf'),\n" ++
  t!"                              os.path.join('neon','default.css'),\n" ++
  t!"                              os.path.join('deutsche','*.ttf'),\n" ++
  t!"                              os.path.join('deutsche','default.css'),\n" ++
  t!"                              os.path.join('safari','default.css'),\n" ++
  t!"                              os.path.join('safari','*.jpg'),\n" ++
  t!"                              os.path.join('safari','*.png'),\n" ++
  t!"                             ],\n" ++
  t!"      }},\n" ++
  t!"  py_modules=[],\n" ++
  t!"  install_requires= {install_requires},\n" ++
  t!"  provides=['bglib'],\n" ++
  t!"  url=\"{HOMEPAGE}\",\n" ++
  t!"  license=\"proprietary\",\n" ++
  t!")\n" ++
  t!"\n"

/-- What is printed, make_setup.py:90. -/
def main (f : Files) : Py Text := do
  return (← format (metadata f) none template) ++ ['\n']

/-- The files of the library: VERSION, DESCRIPTION and freeze.txt. -/
def files : Files where
  version := t!"0.0.10\n"
  description :=
    t!"This package contains:\n" ++
  t!" * model\n" ++
  t!"  provides model to all other modules in this library.\n" ++
  t!"\n" ++
  t!" * encoding\n" ++
  t!"  gnubgid : provides gnubg postion id decoder/encoder\n" ++
  t!"  FIBS : provides FIBS 'board:' responce  decoder\n" ++
  t!"  asciiart : provides ascii art decoder/encoder.\n" ++
  t!"  dbbyte : encoding for databasing position\n" ++
  t!"  bearoff : encoding for bear off database\n" ++
  t!"\n" ++
  t!" * doc\n" ++
  t!"  provides bgwiki formatting engine.\n" ++
  t!"\n" ++
  t!" * gui \n" ++
  t!"  provides some GUI widgets using wxpython.\n" ++
  t!"\n" ++
  t!" * image \n" ++
  t!"  board imaging functions using PIL.\n" ++
  t!"\n" ++
  t!" * protocol\n" ++
  t!"  FIBS/session\n" ++
  t!"\n" ++
  t!" * record\n" ++
  t!"  gnubg: gnubg python module support\n" ++
  t!"  snowietxt: snowietxt format file support\n" ++
  t!"\n" ++
  t!" * stat\n" ++
  t!"  rating: rating calculation\n" ++
  t!"  tourney: tourney equity based on rating\n" ++
  t!"\n"
  freeze := t!"BeautifulSoup==3.2.0\n" ++
    t!"ClientForm==0.2.10\n" ++
    t!"Markdown==2.1.1\n" ++
    t!"decorator==3.3.2\n" ++
    t!"distribute==0.6.19\n" ++
    t!"docutils==0.8.1\n" ++
    t!"elementtree==1.2.7-20070827-preview\n" ++
    t!"feedparser==5.0.1\n" ++
    t!"nose==1.1.2\n" ++
    t!"python-memcached==1.47\n" ++
    t!"git+ssh://git@github.com/bgnori/tonic.git\n" ++
    t!"wsgiref==0.1.2\n"

/-- The script that comes with the library, setup.py:1-97. -/
def shippedScript : Text :=
  t!"#!/usr/bin/python\n" ++
  t!"# -*- coding: us-ascii -*-\n" ++
  t!"# vim: syntax=python\n" ++
  t!"#\n" ++
  t!"# Copyright 2006-2012 Noriyuki Hosaka bgnori@gmail.com\n" ++
  t!"#\n" ++
  t!"\n" ++
  t!"from setuptools import setup\n" ++
  t!"import os.path\n" ++
  t!"\n" ++
  t!"\n" ++
  t!"try:\n" ++
  t!"    # add classifiers and download_url syntax to distutils\n" ++
  t!"    from distutils.dist import DistributionMetadata\n" ++
  t!"    DistributionMetadata.classifiers = None\n" ++
  t!"    DistributionMetadata.download_url = None\n" ++
  t!"except:\n" ++
  t!"    pass\n" ++
  t!"\n" ++
  t!"setup(\n" ++
  t!"  name=\"python-bglib-library\",\n" ++
  t!"  version=\"0.0.10\",\n" ++
  t!"  zip_safe=False,\n" ++
  t!"  description=\"\"\"backgammon programming utilities for python\"\"\",\n" ++
  t!"  long_description=\"\"\"This package contains:\n" ++
  t!" * model\n" ++
  t!"  provides model to all other modules in this library.\n" ++
  t!"\n" ++
  t!" * encoding\n" ++
  t!"  gnubgid : provides gnubg postion id decoder/encoder\n" ++
  t!"  FIBS : provides FIBS 'board:' responce  decoder\n" ++
  t!"  asciiart : provides ascii art decoder/encoder.\n" ++
  t!"  dbbyte : encoding for databasing position\n" ++
  t!"  bearoff : encoding for bear off database\n" ++
  t!"\n" ++
  t!" * doc\n" ++
  t!"  provides bgwiki formatting engine.\n" ++
  t!"\n" ++
  t!" * gui \n" ++
  t!"  provides some GUI widgets using wxpython.\n" ++
  t!"\n" ++
  t!" * image \n" ++
  t!"  board imaging functions using PIL.\n" ++
  t!"\n" ++
  t!" * protocol\n" ++
  t!"  FIBS/session\n" ++
  t!"\n" ++
  t!" * record\n" ++
  t!"  gnubg: gnubg python module support\n" ++
  t!"  snowietxt: snowietxt format file support\n" ++
  t!"\n" ++
  t!" * stat\n" ++
  t!"  rating: rating calculation\n" ++
  t!"  tourney: tourney equity based on rating\n" ++
  t!"\n" ++
  t!"\"\"\",\n" ++
  t!"  author=\"Noriyuki Hosaka\",\n" ++
  t!"  author_email=\"bgnori@gmail.com\",\n" ++
  t!"  package_dir = {\n" ++
  t!"                 'bglib':'bglib', #root\n" ++
  t!"                 },\n" ++
  t!"  packages = ['bglib', \n" ++
  t!"              'bglib.doc', \n" ++
  t!"              'bglib.encoding', \n" ++
  t!"              'bglib.image', \n" ++
  t!"              'bglib.image.resource', \n" ++
  t!"              'bglib.model',\n" ++
  t!"              'bglib.protocol'\n" ++
  t!"              ],\n" ++
  t!"  package_data = {\n" ++
  t!"      'bglib.image.resource':[os.path.join('matrix','default.css'),\n" ++
  t!"                              os.path.join('matrix','*.png'),\n" ++
  t!"                              os.path.join('minimal','*.ttf'),\n" ++
  t!"                              os.path.join('minimal','default.css'),\n" ++
  t!"                              os.path.join('kotobuki','*.ttf'),\n" ++
  t!"                              os.path.join('kotobuki','default.css'),\n" ++
  t!"                              os.path.join('nature','*.ttf'),\n" ++
  t!"                              os.path.join('nature','default.css'),\n" ++
  t!"                              os.path.join('flower','*.ttf'),\n" ++
  t!"                              os.path.join('flower','default.css'),\n" ++
  t!"                              os.path.join('neon','*.ttf'),\n" ++
  t!"                              os.path.join('neon','default.css'),\n" ++
  t!"                              os.path.join('deutsche','*.ttf'),\n" ++
  t!"                              os.path.join('deutsche','default.css'),\n" ++
  t!"                              os.path.join('safari','default.css'),\n" ++
  t!"                              os.path.join('safari','*.jpg'),\n" ++
  t!"                              os.path.join('safari','*.png'),\n" ++
  t!"                             ],\n" ++
  t!"      },\n" ++
  t!"  py_modules=[],\n" ++
  t!"  install_requires= ['BeautifulSoup==3.2.0\\n', 'ClientForm==0.2.10\\n', 'Markdown==2.1.1\\n', 'decorator==3.3.2\\n', 'distribute==0.6.19\\n', 'docutils==0.8.1\\n', 'elementtree==1.2.7-20070827-preview\\n', 'feedparser==5.0.1\\n', 'nose==1.1.2\\n', 'python-memcached==1.47\\n', 'python-tonic-library==0.0.16.rev\\n', 'wsgiref==0.1.2\\n'],\n" ++
  t!"  provides=['bglib'],\n" ++
  t!"  url=\"https://github.com/bgnori/bglib\",\n" ++
  t!"  license=\"proprietary\",\n" ++
  t!")\n" ++
  t!"\n" ++
  t!"\n"

end Bglib.Setup
