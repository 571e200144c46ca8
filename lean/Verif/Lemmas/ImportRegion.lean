import Verif.Model.Import
/-
Finitely many states are enough to know what becomes of a module: those of a region, a set of modules
that import only each other.  Here the region of a module and its states are computed, and what has to be
checked about them is defined; `Lemmas/Import.lean` shows that this suffices.
-/
namespace Bglib.Import

/-- The spaces have the same names with the same values. -/
def sameSpace (a b : Space) : Bool :=
  decide (a = b) || ((a.all fun e => decide (look e.1 a = look e.1 b)) && (b.all fun e => decide (look e.1 a = look e.1 b)))

/-- The modules of `R` have the same names with the same values (after a quicker look at which are there). -/
def sameOn (R : List Path) (s t : State) : Bool :=
  (R.all fun p => (s.space p).isSome == (t.space p).isSome) && R.all fun p => match s.space p, t.space p with
  | none, none => true
  | some a, some b => sameSpace a b
  | _, _ => false

def mem (R : List Path) (p : Path) : Bool := R.any fun q => samePath q p

/-- No module outside of `R` is an attribute, with one of these names, of a module of `R`. -/
def avoids (l : Library) (R : List Path) (ns : List Name) : Bool :=
  l.all fun k => mem R k.path || !mem R k.path.tail || !(ns.any fun n => decide (n = k.path.headD 0))

def allIn (R ps : List Path) : Bool := ps.all (mem R)

/-- The statement has only to do with the modules of `R`. -/
def stmtIn (l : Library) (R : List Path) : Stmt → Bool
  | .bind _ => true
  | .all _ => true
  | .use r => avoids l R r
  | .imp pl p _ => allIn R (chain (p.reverse ++ pl)) && mem R (p.reverse ++ pl) && mem R (p.headD 0 :: pl)
  | .frm pl p ns => allIn R (chain (p.reverse ++ pl)) && mem R (p.reverse ++ pl) && avoids l R (ns.map (·.1))
  | .star pl p => allIn R (chain (p.reverse ++ pl)) && mem R (p.reverse ++ pl) &&
    l.all fun k => !samePath k.path.tail (p.reverse ++ pl) || mem R k.path

/-- The modules of `R` have only to do with each other. -/
def closed (l : Library) (R : List Path) : Bool := R.all fun p =>
  (decide (p.tail = []) || mem R p.tail) &&
  match l.find p with
  | none => false
  | some m => m.body.all (stmtIn l R)

/-- The modules loaded by `m` alone, and those whose names may be seen by them. -/
def region (l : Library) (m : Path) (more : List Path) : List Path := match importing l m [] with
  | none => []
  | some (s, _) =>
    let r := s.map (·.1)
    let r := if mem r m then r else m :: r
    r ++ more.filter fun p => mem r p.tail && !mem r p

/-- The states that importing modules of `R` leads to. -/
def grow (l : Library) (R : List Path) : Nat → List State → List State → List State
  | 0, _, done => done
  | _ + 1, [], done => done
  | f + 1, t :: todo, done =>
    let new := R.foldl (fun acc q =>
      if (t.space q).isSome then acc else
      match load l (l.length + 1) q t with
      | some (t', _) => if (done ++ acc).any (sameOn R t') then acc else acc ++ [t']
      | none => acc) []
    grow l R f (todo ++ new) (done ++ new)

/-- Importing a module of `R` leads from the states `T` to such states, and no state has a name of a
module outside of `R`. -/
def settled (l : Library) (R : List Path) (T : List State) : Bool :=
  (T.any fun t => decide (t = [])) &&
  T.all fun t =>
    (R.all fun q => (t.space q).isSome || match load l (l.length + 1) q t with
      | none => false
      | some (t', _) => T.any (sameOn R t')) &&
    l.all fun k => mem R k.path || decide (t.entry k.path.tail (k.path.headD 0) = none)

/-- In all states `T`: whether `m` can be imported is `good`, and when it is imported, the names its
functions use are found exactly if they are not in `lost`. -/
def answers (l : Library) (R : List Path) (T : List State) (m : Module) (good : Bool) (lost : List (List Name)) : Bool :=
  avoids l R (m.later.flatten) && allIn R (chain m.path) && mem R m.path &&
  T.all fun t =>
    (match importing l m.path t with
     | none => false
     | some (_, b) => b == good) &&
    (decide (t.space m.path = none) ||
     m.later.all fun r => (resolve t m.path r).isSome != (lost.any fun r' => decide (r' = r)))

/-- All that has to be checked for a module. -/
def checks (l : Library) (more : List Path) (m : Module) (good : Bool) (lost : List (List Name)) : Bool :=
  let R := region l m.path more
  let T := grow l R 200 [[]] [[]]
  closed l R && settled l R T && answers l R T m good lost

end Bglib.Import
