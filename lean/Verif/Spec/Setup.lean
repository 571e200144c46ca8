import Verif.Model.Setup
import Verif.Spec.Theme
/-
Reading an installation script as Python does, as far as it matters here (C103): words, the call of `setup`, its arguments.
-/
namespace Bglib.Spec.Setup
open Bglib Bglib.Setup

/-! ### Words of a script -/

/-- A word: a name or number, a string (what it stands for), or a sign. -/
inductive Word where
  | name (t : Text)
  | str (t : Text)
  | sign (c : Char)
  deriving DecidableEq, Repr

/-- Where the reader is.  `q` is the mark a string began with, `long` tells strings in three marks from those in one, `acc` is
what was read, backwards. -/
inductive Mode where
  | code
  | name (acc : Text)
  | comment
  | opened (q : Char)
  | twice (q : Char)
  | inside (long : Bool) (q : Char) (acc : Text) (marks : Nat)
  | escape (long : Bool) (q : Char) (acc : Text)
  | hex (long : Bool) (q : Char) (acc : Text) (high : Option Nat)
  | bad
  deriving DecidableEq

def isNameChar (c : Char) : Bool := c.isAlphanum || c = '_'

def hexValue (c : Char) : Option Nat :=
  if '0' ≤ c ∧ c ≤ '9' then some (c.toNat - 48) else if 'a' ≤ c ∧ c ≤ 'f' then some (c.toNat - 87) else none

def stepCode (c : Char) : Mode × List Word :=
  if isSpace c then (.code, [])
  else if c = '#' then (.comment, [])
  else if c = '"' ∨ c = '\'' then (.opened c, [])
  else if isNameChar c then (.name [c], [])
  else (.code, [.sign c])

def stepInside (long : Bool) (q : Char) (acc : Text) (marks : Nat) (c : Char) : Mode × List Word :=
  if c = q then
    if long then (if marks = 2 then (.code, [.str acc.reverse]) else (.inside true q acc (marks + 1), []))
    else (.code, [.str acc.reverse])
  else if c = '\\' then (.escape long q (List.replicate marks q ++ acc), [])
  else if c = '\n' ∧ long = false then (.bad, [])
  else (.inside long q (c :: (List.replicate marks q ++ acc)) 0, [])

/-- Escapes other than these are not read. -/
def stepEscape (long : Bool) (q : Char) (acc : Text) (c : Char) : Mode :=
  if c = 'n' then .inside long q ('\n' :: acc) 0
  else if c = 't' then .inside long q ('\t' :: acc) 0
  else if c = 'r' then .inside long q ('\r' :: acc) 0
  else if c = '\\' ∨ c = '\'' ∨ c = '"' then .inside long q (c :: acc) 0
  else if c = '\n' then .inside long q acc 0
  else if c = 'x' then .hex long q acc none
  else .bad

/-- Scripts are in ASCII, and lines end with line feeds. -/
def step (m : Mode) (c : Char) : Mode × List Word :=
  if 128 ≤ c.toNat ∨ c = '\r' ∨ c = '\x00' then (.bad, [])
  else match m with
  | .code => stepCode c
  | .name acc => if isNameChar c then (.name (c :: acc), []) else ((stepCode c).1, .name acc.reverse :: (stepCode c).2)
  | .comment => if c = '\n' then (.code, []) else (.comment, [])
  | .opened q => if c = q then (.twice q, []) else stepInside false q [] 0 c
  | .twice q => if c = q then (.inside true q [] 0, []) else ((stepCode c).1, .str [] :: (stepCode c).2)
  | .inside long q acc marks => stepInside long q acc marks c
  | .escape long q acc => (stepEscape long q acc c, [])
  | .hex long q acc none => match hexValue c with
    | some h => (.hex long q acc (some h), [])
    | none => (.bad, [])
  | .hex long q acc (some h) => match hexValue c with
    | some l => (.inside long q (Char.ofNat (16 * h + l) :: acc) 0, [])
    | none => (.bad, [])
  | .bad => (.bad, [])

def lex (m : Mode) : Text → Mode × List Word
  | [] => (m, [])
  | c :: r => ((lex (step m c).1 r).1, (step m c).2 ++ (lex (step m c).1 r).2)

/-- The words of a script that ends with a line feed; `none` if Python would refuse it. -/
def words (t : Text) : Option (List Word) :=
  match lex .code t with
  | (.code, ws) => some ws
  | _ => none

/-! ### The call of `setup` -/

/-- The words behind `setup(`. -/
def called : List Word → Option (List Word)
  | .name n :: .sign '(' :: r => if n = t!"setup" then some r else called (.sign '(' :: r)
  | _ :: r => called r
  | [] => none

/-- Where the reader of arguments is: how many brackets are open and what the argument has so far, or behind the call. -/
inductive Spot where
  | within (depth : Nat) (argument : List Word)
  | behind
  deriving DecidableEq

def opens (w : Word) : Bool := w = .sign '(' || w = .sign '[' || w = .sign '{'
def closes (w : Word) : Bool := w = .sign ')' || w = .sign ']' || w = .sign '}'

def next (p : Spot) (w : Word) : Spot × List (List Word) :=
  match p with
  | .behind => (.behind, [])
  | .within d arg =>
    if opens w then (.within (d + 1) (arg ++ [w]), [])
    else if closes w then
      match d with
      | 0 => (.behind, if arg = [] then [] else [arg])
      | d + 1 => (.within d (arg ++ [w]), [])
    else if w = .sign ',' ∧ d = 0 then (.within 0 [], [arg])
    else (.within d (arg ++ [w]), [])

def scan (p : Spot) : List Word → Spot × List (List Word)
  | [] => (p, [])
  | w :: ws => ((scan (next p w).1 ws).1, (next p w).2 ++ (scan (next p w).1 ws).2)

/-- The keyword arguments of the call of `setup` in a script: their names and the words of their values. -/
def arguments (t : Text) : Option (List (Text × List Word)) := do
  let ws ← words t
  let r ← called ws
  (scan (.within 0 []) r).2.mapM fun arg =>
    match arg with
    | .name n :: .sign '=' :: v => some (n, v)
    | _ => none

/-- An argument. -/
def toWords (a : Text × List Word) : List Word := .name a.1 :: .sign '=' :: a.2

/-- A list of strings. -/
def strings (l : List Text) : List Word := .sign '[' :: List.intersperse (.sign ',') (l.map .str) ++ [.sign ']']

/-! ### Texts that can be put between marks as they are -/

def Ascii (c : Char) : Prop := c.toNat < 128 ∧ c ≠ '\r' ∧ c ≠ '\x00'

/-- Between two quotation marks. -/
def FitsShort (t : Text) : Prop := ∀ c ∈ t, Ascii c ∧ c ≠ '"' ∧ c ≠ '\\' ∧ c ≠ '\n'

/-- Between two times three quotation marks: these do not come earlier than at the end. -/
def FitsLong (t : Text) : Prop :=
  (∀ c ∈ t, Ascii c ∧ c ≠ '\\') ∧ ∀ a b, t ++ t!"\"\"" ≠ a ++ t!"\"\"\"" ++ b

/-- The files can be put into the script. -/
structure Fits (f : Files) : Prop where
  version : FitsShort (Doc.strip f.version)
  description : FitsLong f.description
  freeze : ∀ c ∈ f.freeze, c.toNat < 256

/-! ### What there is to install -/

/-- The packages of the library: the directories with an `__init__.py`. -/
def packages : List Text := [t!"bglib", t!"bglib.doc", t!"bglib.encoding", t!"bglib.encoding.bearoff", t!"bglib.image",
  t!"bglib.image.resource", t!"bglib.model", t!"bglib.protocol", t!"bglib.record", t!"bglib.stat"]

/-- The packages that are installed. -/
def installed : List Text := [t!"bglib", t!"bglib.doc", t!"bglib.encoding", t!"bglib.image", t!"bglib.image.resource", t!"bglib.model",
  t!"bglib.protocol"]

/-- The data files that are installed: directories below that of `bglib.image.resource`, and the files of each. -/
def dataFiles : List (Text × Text) := [(t!"matrix", t!"default.css"), (t!"matrix", t!"*.png"), (t!"minimal", t!"*.ttf"),
  (t!"minimal", t!"default.css"), (t!"kotobuki", t!"*.ttf"), (t!"kotobuki", t!"default.css"), (t!"nature", t!"*.ttf"),
  (t!"nature", t!"default.css"), (t!"flower", t!"*.ttf"), (t!"flower", t!"default.css"), (t!"neon", t!"*.ttf"),
  (t!"neon", t!"default.css"), (t!"deutsche", t!"*.ttf"), (t!"deutsche", t!"default.css"), (t!"safari", t!"default.css"),
  (t!"safari", t!"*.jpg"), (t!"safari", t!"*.png")]

/-- `os.path.join('directory','files'),` -/
def joinWords (p : Text × Text) : List Word := [.name t!"os", .sign '.', .name t!"path", .sign '.', .name t!"join", .sign '(', .str p.1,
  .sign ',', .str p.2, .sign ')', .sign ',']

/-- The arguments of `setup` for this version, description and requirements. -/
def intended (version description : Text) (requirements : List Text) : List (Text × List Word) := [
  (t!"name", [.str t!"python-bglib-library"]),
  (t!"version", [.str version]),
  (t!"zip_safe", [.name t!"False"]),
  (t!"description", [.str t!"backgammon programming utilities for python"]),
  (t!"long_description", [.str description]),
  (t!"author", [.str t!"Noriyuki Hosaka"]),
  (t!"author_email", [.str t!"bgnori@gmail.com"]),
  (t!"package_dir", [.sign '{', .str t!"bglib", .sign ':', .str t!"bglib", .sign ',', .sign '}']),
  (t!"packages", strings installed),
  (t!"package_data", [.sign '{', .str t!"bglib.image.resource", .sign ':', .sign '['] ++ dataFiles.flatMap joinWords ++
    [.sign ']', .sign ',', .sign '}']),
  (t!"py_modules", strings []),
  (t!"install_requires", strings requirements),
  (t!"provides", strings [t!"bglib"]),
  (t!"url", [.str t!"https://github.com/bgnori/bglib"]),
  (t!"license", [.str t!"proprietary"])]

/-- A file matches a pattern that is its name, or an asterisk and how it ends. -/
def fits (pattern file : Text) : Bool :=
  match pattern with
  | '*' :: ending => ending.reverse.isPrefixOf file.reverse && file.head? != some '.'
  | _ => pattern == file

/-- The files a line of a style sheet names: what is between `uri("` and `"`. -/
def namedIn : Text → List Text
  | 'u' :: 'r' :: 'i' :: '(' :: '"' :: r => r.takeWhile (· ≠ '"') :: namedIn r
  | _ :: r => namedIn r
  | [] => []

/-- The directory of a style, below that of the package `bglib.image.resource`, and the files there that it needs. -/
def needs (style : Text × List Text) : Text × List Text :=
  (((style.1.drop t!"bglib/image/resource/".length).takeWhile (· ≠ '/')), t!"default.css" :: style.2.flatMap namedIn)

end Bglib.Spec.Setup
