import Verif.Spec.Document
import Verif.Spec.Wiki
/-
Paragraphs with links, macros and characters that stand for something else (C114): how they are written as
wiki text, what they should look like as HTML, and where their links should lead.
-/
namespace Bglib.Spec.Mixed
open Bglib Bglib.Doc
open Bglib.Spec.Document (Style words element)

def digit (c : Char) : Bool := CharSet.mem ⟨false, [('0', '9')]⟩ c
def capital (c : Char) : Bool := CharSet.mem ⟨false, [('A', 'Z')]⟩ c
def small (c : Char) : Bool := CharSet.mem ⟨false, [('a', 'z'), ('0', '9')]⟩ c
def letter (c : Char) : Bool := CharSet.mem ⟨false, [('A', 'Z'), ('a', 'z')]⟩ c
def wordly (c : Char) : Bool := CharSet.mem ⟨false, [('a', 'z'), ('A', 'Z'), ('0', '9'), ('_', '_')]⟩ c
def argument (c : Char) : Bool := CharSet.mem ⟨false, [('a', 'z'), ('A', 'Z'), ('0', '9'), ('+', '+'), (',', ','), (' ', ' '), ('.', '.'),
  ('=', '='), ('/', '/'), ('#', '#'), (':', ':')]⟩ c

/-- Some characters, all of a kind. -/
def Filled (kind : Char → Bool) (t : Text) : Prop := t ≠ [] ∧ t.all kind = true

/-! ### Links -/

/-- Links to entries, queries, matches and pages of the wiki in all their forms, and to the web, alone or in
brackets with or without other text. -/
inductive Link where
  | entry (long : Bool) (n : Text)
  | query (long : Bool) (n : Text)
  | game (form : Fin 3) (n : Text)
  | page (name : Text)
  | camel (parts : List (Char × Text))
  | web (secure : Bool) (rest : Text)
  | named (secure : Bool) (rest : Text) (disp : Option Text)
  deriving DecidableEq, Repr

def joined (parts : List (Char × Text)) : Text := parts.flatMap fun p => p.1 :: p.2

def url (secure : Bool) (rest : Text) : Text := t!"http" ++ (if secure then t!"s" else []) ++ t!"://" ++ rest

def Link.write : Link → Text
  | .entry false n => '#' :: n
  | .entry true n => t!"entry:" ++ n
  | .query false n => '{' :: n ++ t!"}"
  | .query true n => t!"query:" ++ n
  | .game 0 n => 'm' :: n
  | .game 1 n => t!"match:" ++ n
  | .game 2 n => '[' :: n ++ t!"]"
  | .page name => t!"[wiki:" ++ name ++ t!"]"
  | .camel parts => joined parts
  | .web secure rest => url secure rest
  | .named secure rest none => '[' :: url secure rest ++ t!"]"
  | .named secure rest (some d) => '[' :: url secure rest ++ ' ' :: d ++ t!"]"

/-- Numbers are of digits, the names of pages of letters; those without brackets are two or more words with
capitals.  Web addresses with `&` are another matter (C62). -/
def Link.Fit : Link → Prop
  | .entry _ n | .query _ n | .game _ n => Filled digit n
  | .page name => Filled letter name
  | .camel parts => 2 ≤ parts.length ∧ ∀ p ∈ parts, capital p.1 = true ∧ Filled small p.2
  | .web _ rest | .named _ rest none => Filled urlChar rest ∧ '&' ∉ rest
  | .named _ rest (some d) => (Filled urlChar rest ∧ '&' ∉ rest) ∧ d ≠ [] ∧ ']' ∉ d ∧ '\n' ∉ d ∧ '\r' ∉ d

/-- A character behind the link that does not belong to it. -/
def Link.Stops (l : Link) (next : Option Char) : Prop :=
  match l with
  | .entry _ _ | .query true _ | .game 0 _ | .game 1 _ => ∀ c, next = some c → digit c = false
  | .camel _ => ∀ c, next = some c → small c = false ∧ capital c = false
  | .web _ _ => ∀ c, next = some c → urlChar c = false
  | _ => True

/-- The text of a link. -/
def Link.text : Link → Text
  | .page name => name
  | .named secure rest none => url secure rest
  | .named _ _ (some d) => escape d
  | l => l.write

/-- Links to the web have an icon. -/
def Link.html (l : Link) : List Tok :=
  match l with
  | .web _ _ | .named _ _ _ => element t!"a" (element t!"span" (words l.text))
  | _ => element t!"a" (words l.text)

/-- The class of a link and where it leads. -/
def Link.target (path : Text) : Link → Text × Text
  | .entry _ n => (t!"entry", t!"/entry/" ++ n)
  | .query _ n => (t!"query", t!"/query/" ++ n)
  | .game _ n => (t!"match", t!"/match/" ++ n)
  | .page name => (t!"wiki-link", path ++ name)
  | .camel parts => (t!"wiki-link", path ++ joined parts)
  | .web secure rest | .named secure rest _ => (t!"ext-link", url secure rest)

/-! ### Macros -/

def base64 (c : Char) : Bool := CharSet.mem ⟨false, [('a', 'z'), ('A', 'Z'), ('0', '9'), ('/', '/'), ('+', '+')]⟩ c

/-- Begins with a position and a match in base 64. -/
def HasId (s : Text) : Prop :=
  ∃ a b r : Text, s = a ++ ':' :: b ++ r ∧ a.length = 14 ∧ b.length = 12 ∧ a.all base64 = true ∧ b.all base64 = true

theorem hasId_iff (s : Text) : (27 ≤ s.length ∧ (s.take 14).all base64 = true ∧ s[14]? = some ':' ∧ ((s.drop 15).take 12).all base64 = true) ↔ HasId s := by
  constructor
  · rintro ⟨h1, h2, h3, h4⟩
    refine ⟨s.take 14, (s.drop 15).take 12, (s.drop 15).drop 12, ?_, by simp; omega, by simp; omega, h2, h4⟩
    have e : s.drop 14 = ':' :: s.drop 15 := by
      obtain ⟨hl, hc⟩ := List.getElem?_eq_some_iff.1 h3
      rw [List.drop_eq_getElem_cons hl, hc]
    rw [List.append_assoc, List.cons_append, List.take_append_drop, ← e, List.take_append_drop]
  · rintro ⟨a, b, r, rfl, ha, hb, h1, h2⟩
    refine ⟨by simp; omega, ?_, ?_, ?_⟩
    · simpa [List.take_append, ha] using h1
    · simp [ha]
    · simpa [List.drop_append, List.take_append, ha, hb, List.drop_eq_nil_of_le (show a.length ≤ 15 by omega)] using h2

instance (s : Text) : Decidable (HasId s) := decidable_of_iff _ (hasId_iff s)

/-- Macros that are not about the rest of the document; an analysis is asked for without a position. -/
def MacroFit (name : Text) (args : Option Text) : Prop :=
  Filled wordly name ∧ (∀ a, args = some a → Filled argument a) ∧ name ≠ t!"TableOfContent" ∧
    (name = t!"Position" → args ≠ none) ∧ (name = t!"Analysis" → ∃ a, args = some a ∧ ¬ HasId a)

/-- The picture of a position. -/
def IsPosition (name : Text) (args : Option Text) : Prop := name = t!"Position" ∧ HasId (args.getD [])

instance (name : Text) (args : Option Text) : Decidable (IsPosition name args) := inferInstanceAs (Decidable (_ ∧ _))

/-- The argument in a message. -/
def quoted : Option Text → Text
  | none => t!"None"
  | some a => escape a

/-- What macros show; those about positions complain if the argument is not a position. -/
def macroHtml (now : Text) (name : Text) (args : Option Text) : List Tok :=
  if name = t!"BR" then [.single t!"br"]
  else if name = t!"Timestamp" then element t!"strong" (words now)
  else if IsPosition name args then element t!"span" [.single t!"img"]
  else if name = t!"Position" ∨ name = t!"Analysis" then
    element t!"span" (words (t!"Bad args \"" ++ quoted args ++ t!"\" for " ++ name ++ t!"\n"))
  else element t!"span" (words (t!"No such macro \"" ++ name ++ t!"\" with argument \"" ++ quoted args ++ t!"\""))

def macroWrite (name : Text) (args : Option Text) : Text :=
  t!"[[" ++ name ++ (match args with
    | none => []
    | some a => '(' :: a ++ t!")") ++ t!"]]"

/-! ### Lines -/

/-- Plain text, a stretch in another type, a link, a link or mark behind an exclamation mark, a macro, or a
character with a meaning in HTML. -/
inductive Elt where
  | plain (u : Text)
  | styled (s : Style) (u : Text)
  | link (l : Link)
  | escaped (l : Link)
  | escapedMark (s : Style)
  | macro (name : Text) (args : Option Text)
  | special (c : Char)

abbrev Line := List Elt

def Elt.write : Elt → Text
  | .plain u => u
  | .styled s u => s.before ++ u ++ s.after
  | .link l => l.write
  | .escaped l => '!' :: l.write
  | .escapedMark s => '!' :: s.before
  | .macro name args => macroWrite name args
  | .special c => [c]

def write (l : Line) : Text := l.flatMap Elt.write

def Elt.Fit : Elt → Prop
  | .plain u => u.all Document.plain = true
  | .styled _ u => Filled Document.plain u
  | .link l | .escaped l => l.Fit
  | .escapedMark _ => True
  | .macro name args => MacroFit name args
  | .special c => c = '<' ∨ c = '>' ∨ c = '&' ∨ c = '?'

/-- What comes next does not belong to it. -/
def Elt.Stops (e : Elt) (next : Option Char) : Prop :=
  match e with
  | .link l | .escaped l => l.Stops next
  | .styled s _ => next ≠ s.after.head?
  | .escapedMark s => next ≠ s.before.head?
  | _ => True

def Fit : Line → Prop
  | [] => True
  | e :: l => e.Fit ∧ e.Stops (write l).head? ∧ Fit l

/-- Looks neither like an item, a quotation nor a citation. -/
def Ordinary (l : Line) : Prop := Fit l ∧ ∃ c, (write l).head? = some c ∧ c ≠ ' ' ∧ c ≠ '>'

/-- What is shown as part of the text around it. -/
def Elt.inText : Elt → Option Text
  | .plain u => some u
  | .escaped l => some (escape l.write)
  | .escapedMark s => some s.before
  | .special c => some (escape [c])
  | _ => none

def Elt.html (now : Text) : Elt → List Tok
  | .styled s u => element s.tag (words u)
  | .link l => l.html
  | .macro name args => macroHtml now name args
  | _ => []

/-- The parts of lines one after the other, behind the text `t`. -/
def flow (now : Text) (t : Text) : Line → List Tok
  | [] => words t
  | e :: l => match e.inText with
    | some u => flow now (t ++ u) l
    | none => words t ++ e.html now ++ flow now [] l

/-- The links of a line. -/
def targets (path : Text) (l : Line) : List (Text × Text) := l.flatMap fun e => match e with
  | .link k => [k.target path]
  | _ => []

/-! ### Paragraphs -/

/-- The picture of a position. -/
def Elt.Picture : Elt → Prop
  | .macro name args => IsPosition name args
  | _ => False

/-- Nothing comes behind a picture. -/
def PicturesLast (ls : List Line) : Prop := ∀ e ∈ ls.flatten.dropLast, ¬ e.Picture

/-- The text of paragraphs, an empty line behind each. -/
def text (ps : List (List Line)) : Text := (ps.flatMap fun ls => ls.map write ++ [[]]).flatMap (· ++ ['\n'])

def html (now : Text) (ps : List (List Line)) : List Tok := ps.flatMap fun ls => element t!"div" (flow now [] ls.flatten)

end Bglib.Spec.Mixed
