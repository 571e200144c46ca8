import Verif.Model.Text
/-
How Python 2 imports the modules of the library: which names the modules have at which time, and
whether the names that the code uses are found.

Covers the import system of Python 2 (`Python/import.c`: `import_module_level`, `import_submodule`,
`ensure_fromlist`, and `import_all_from` of `ceval.c`) as far as the modules of bglib use it.
Simplifications:
* Values are of three kinds: a module of the library, the list `__all__`, and anything else (`thing`).
  Attributes are looked up in modules of the library only; a `thing` has every attribute.
* Names of Python itself are always found; they are left out.
* Modules outside of the library can be imported and have every attribute.
* The parts of a module that run when it is imported are a list of statements without branches; this is
  so in all modules but for the blocks under `if __name__ == '__main__'`, which are left out.
* Functions called while a module is imported (`css.load` in the modules of `image/resource`) are not
  followed; that they succeed is C64 and C67.
-/
namespace Bglib.Import

/-- A name, given by the number its letters make in base 256 (so that names are compared quickly). -/
abbrev Name := Nat

/-- `n!"abc"` is the name `abc`. -/
syntax:max "n!" str : term
open Lean in
macro_rules
  | `(n! $s:str) => `(($(Syntax.mkNumLit (toString (s.getString.toList.foldl (fun a c => a * 256 + c.toNat) 0))) : Nat))

/-- `p!"a.b.c"` is the list of the names `a`, `b` and `c`. -/
syntax:max "p!" str : term
open Lean in
macro_rules
  | `(p! $s:str) => do
    let ns := (s.getString.splitOn ".").map fun w =>
      Syntax.mkNumLit (toString (w.toList.foldl (fun a c => a * 256 + c.toNat) 0))
    `(([$(ns.toArray),*] : List Nat))

/-- The name of a module, then those of the packages it is in, the innermost first. -/
abbrev Path := List Name

/-- `m!"a.b.c"` is the module `c` in the package `b` in the package `a`. -/
syntax:max "m!" str : term
open Lean in
macro_rules
  | `(m! $s:str) => do
    let ns := (s.getString.splitOn ".").reverse.map fun w =>
      Syntax.mkNumLit (toString (w.toList.foldl (fun a c => a * 256 + c.toNat) 0))
    `(([$(ns.toArray),*] : Path))

/-- Equality, in a form that is evaluated quickly. -/
def samePath : Path → Path → Bool
  | [], [] => true
  | a :: p, b :: q => bif Nat.beq a b then samePath p q else false
  | _, _ => false

/-- A value as far as it matters. -/
inductive Val where
  | lib (p : Path)
  | names (l : List Name)
  | thing
  deriving DecidableEq, Repr

/-- What a module does when it is imported.  `pl` is the package in which the first name after `import` is
found, `[]` if it is found at the top. -/
inductive Stmt where
  /-- `import a.b.c`, or `import a.b.c as d`. -/
  | imp (pl : Path) (p : List Name) (as : Option Name)
  /-- `from a.b import c, d as e`. -/
  | frm (pl : Path) (p : List Name) (ns : List (Name × Name))
  /-- `from a.b import *`. -/
  | star (pl : Path) (p : List Name)
  /-- An assignment, a function or a class, or the import of something outside of the library. -/
  | bind (n : Name)
  /-- `__all__ = [...]`. -/
  | all (ns : List Name)
  /-- A name with attributes, `a.b.c`, whose value is needed. -/
  | use (r : List Name)
  deriving DecidableEq, Repr

structure Module where
  path : Path
  /-- Whether it is a directory with `__init__.py`. -/
  package : Bool
  body : List Stmt
  /-- The global names with attributes that its functions use when they are called. -/
  later : List (List Name)

abbrev Library := List Module

def Library.find (l : Library) (p : Path) : Option Module := List.find? (fun m => samePath m.path p) l

def Library.has (l : Library) (p : Path) : Bool := (l.find p).isSome

/-- The names of a module, the newest first. -/
abbrev Space := List (Name × Val)

def look (n : Name) : Space → Option Val
  | [] => none
  | (k, v) :: r => bif Nat.beq k n then some v else look n r

/-- `sys.modules`, as far as the library goes. -/
abbrev State := List (Path × Space)

def State.space (p : Path) : State → Option Space
  | [] => none
  | (q, sp) :: r => bif samePath q p then some sp else State.space p r

/-- The value of a name of a module. -/
def State.entry (s : State) (p : Path) (n : Name) : Option Val := (s.space p).bind (look n)

def State.change (p : Path) (f : Space → Space) : State → State
  | [] => []
  | (q, sp) :: r => bif samePath q p then (q, f sp) :: r else (q, sp) :: State.change p f r

def State.set (s : State) (p : Path) (n : Name) (v : Val) : State := s.change p ((n, v) :: ·)

def State.drop (s : State) (p : Path) : State := s.filter fun e => !samePath e.1 p

/-- The attributes of a value, one after the other. -/
def attributes (s : State) : Val → List Name → Option Val
  | v, [] => some v
  | .lib p, n :: r => match s.entry p n with
    | none => none
    | some v => attributes s v r
  | _, _ :: _ => some .thing

/-- The value of `a.b.c` in the module `m`; `none` is a `NameError` or an `AttributeError`. -/
def resolve (s : State) (m : Path) : List Name → Option Val
  | [] => none
  | n :: r => match s.entry m n with
    | none => none
    | some v => attributes s v r

/-- Where the module `m` finds a module of the library whose name begins with `h`: beside itself (a package:
inside of itself) if there is one, otherwise at the top.  `none`: it is not in the library. -/
def Library.locate (l : Library) (m : Module) (h : Name) : Option Path :=
  let pk := if m.package then m.path else m.path.tail
  if l.has (h :: pk) then some pk else if l.has [h] then some [] else none

/-- The statement names the place where the module is found. -/
def Library.placed (l : Library) (m : Module) : Stmt → Bool
  | .imp pl p _ => decide (l.locate m (p.headD 0) = some pl)
  | .frm pl p _ => decide (l.locate m (p.headD 0) = some pl)
  | .star pl p => decide (l.locate m (p.headD 0) = some pl)
  | _ => true

/-- The state after a step and whether nothing was raised; `none` if the fuel does not suffice. -/
abbrev Out := Option (State × Bool)

/-- Go on unless something was raised. -/
def Out.andThen (o : Out) (k : State → Out) : Out := match o with
  | none => none
  | some (s, false) => some (s, false)
  | some (s, true) => k s

/-- One after the other until something is raised. -/
def each (f : α → State → Out) : List α → State → Out
  | [], s => some (s, true)
  | a :: r, s => (f a s).andThen (each f r)

/-- The module and the packages it is in, the outermost first. -/
def chain : Path → List Path
  | [] => []
  | n :: p => chain p ++ [n :: p]

/-- The names that `from p import ns` needs: those that a package does not have are imported as its
modules, if there are such modules. -/
def ensure (l : Library) (ld : Path → State → Out) (p : Path) (n : Name) (s : State) : Out :=
  match s.entry p n with
  | some _ => some (s, true)
  | none => if l.has (n :: p) then ld (n :: p) s else some (s, true)

/-- `m.k = p.n`. -/
def take (m p : Path) (n k : Name) (s : State) : Out := match s.entry p n with
  | none => some (s, false)
  | some v => some (s.set m k v, true)

/-- The first letter of a name of at most `f` letters. -/
def firstLetter : Nat → Name → Nat
  | 0, n => n
  | f + 1, n => if n < 256 then n else firstLetter f (n / 256)

/-- Names that begin with `_` are not imported by `*`. -/
def isPublic (n : Name) : Bool := firstLetter 64 n != n!"_"

def State.merge (s : State) (m : Path) (sp : Space) : State := s.change m (sp ++ ·)

/-- `from p import *` in `m` when `p` is imported: the names of `__all__`, or all but those that begin
with `_`. -/
def starFrom (l : Library) (ld : Path → State → Out) (m p : Path) (s : State) : Out :=
  match s.space p with
  | none => some (s, false)
  | some sp => match look n!"__all__" sp with
    | some (.names ns) => (each (ensure l ld p) ns s).andThen (each (fun n => take m p n n) ns)
    | some _ => some (s, false)
    | none => some (s.merge m (sp.filter fun e => isPublic e.1), true)

/-- A statement of the module `m`. -/
def exec (l : Library) (ld : Path → State → Out) (m : Module) : Stmt → State → Out
  | .bind n, s => some (s.set m.path n .thing, true)
  | .all ns, s => some (s.set m.path n!"__all__" (.names ns), true)
  | .use r, s => some (s, (resolve s m.path r).isSome)
  | .imp pl p as, s => (each ld (chain (p.reverse ++ pl)) s).andThen fun s => match as with
    | none => some (s.set m.path (p.headD 0) (.lib (p.headD 0 :: pl)), true)
    | some k => some (s.set m.path k (.lib (p.reverse ++ pl)), true)
  | .frm pl p ns, s =>
    let q := p.reverse ++ pl
    (each ld (chain q) s).andThen fun s =>
      (each (fun e => ensure l ld q e.1) ns s).andThen (each (fun e => take m.path q e.1 e.2) ns)
  | .star pl p, s =>
    let q := p.reverse ++ pl
    (each ld (chain q) s).andThen (starFrom l ld m.path q)

/-- Import a module whose package is imported: nothing if it is in `sys.modules`, also if it is still
being imported.  A module that raises something is taken out again; a module that is complete becomes a
name of its package.  (That the package is imported is looked at here; in Python it is handed over.) -/
def load (l : Library) : Nat → Path → State → Out
  | 0, _, _ => none
  | f + 1, p, s => match s.space p with
    | some _ => some (s, true)
    | none =>
      if p.tail ≠ [] ∧ s.space p.tail = none then some (s, false) else
      match l.find p with
      | none => some (s, false)
      | some m => match each (exec l (load l f) m) m.body ((p, []) :: s) with
        | none => none
        | some (s', false) => some (s'.drop p, false)
        | some (s', true) => some (s'.set p.tail (p.headD 0) (.lib p), true)

/-- `import a.b.c` in a program that uses the library. -/
def importing (l : Library) (p : Path) (s : State) : Out := each (load l (l.length + 1)) (chain p) s

end Bglib.Import
