import Verif.Model.Cookie
/-
Model of `bglib/protocol/session.py`: registering, delivery and the listener thread.

What `expect` of `telnetlib.Telnet` returns or raises is an input here; `Verif.Model.Telnet` tells what it is.  The locks are the
subject of `Verif.Model.Threads`.  Logging is left out.
-/
namespace Bglib

/-- Subscribers are told apart by identity: `Subscriber` defines no `__eq__`. -/
abbrev Sub := Nat

/-- What a handler is called with: a received line or the exception of `expect`. -/
inductive Got where
  | text (s : Text)
  | exc (e : PyErr)
  deriving DecidableEq, Repr

/-- A `Session` and everything else (`rest`) handlers may read and write. -/
structure Sess (σ : Type) where
  subs : List Sub
  active : Bool
  termReq : Bool
  terminated : Bool
  rest : σ

variable {σ : Type}

/-- session.py:37-54, 89-92 -/
def Sess.new (r : σ) : Sess σ := ⟨[], false, false, false, r⟩

/-- session.py:56-59 without the connection and the new thread -/
def Sess.open (s : Sess σ) : Sess σ := { s with active := true }

/-- session.py:66-69 -/
def Sess.close (s : Sess σ) : Sess σ := { s with active := false, termReq := true }

/-- session.py:129-133; every argument is a `Subscriber`. -/
def Sess.register (s : Sess σ) : List Sub → Sess σ
  | [] => s
  | x :: xs => Sess.register { s with subs := s.subs ++ [x] } xs

/-- session.py:136-139; `list.remove` of an absent element is a `ValueError`. -/
def Sess.unregister (s : Sess σ) : List Sub → Py Unit × Sess σ
  | [] => (.ok (), s)
  | x :: xs =>
    if x ∈ s.subs then Sess.unregister { s with subs := s.subs.erase x } xs else (.error .valueError, s)

/-- The methods of the subscribers: `none` if `getattr` finds nothing (or something false).  A handler may
do anything to the session, and raise. -/
abbrev Handlers (σ : Type) := Sub → Text → Option (Got → Sess σ → Py Unit × Sess σ)

/-- A call of a handler: whose, for which cookie, with what. -/
abbrev Call := Sub × Text × Got

/-- What a delivery comes to: result, session and calls of handlers. -/
structure Delivery (σ : Type) where
  result : Py Unit
  sess : Sess σ
  calls : List Call

/-- The loop session.py:119-126.  Iterating a Python list keeps an index and looks at the list as it is at
each step; a loop that does not end runs out of fuel. -/
def deliver (h : Handlers σ) (name : Text) (got : Got) : Nat → Nat → Sess σ → List Call → Delivery σ
  | 0, _, s, calls => ⟨.error .diverges, s, calls⟩
  | fuel + 1, i, s, calls =>
    match s.subs[i]? with
    | none => ⟨.ok (), s, calls⟩
    | some x =>
      match h x name with
      | none => deliver h name got fuel (i + 1) s calls
      | some f =>
        match f got s with
        | (.ok _, s') => deliver h name got fuel (i + 1) s' (calls ++ [(x, name, got)])
        | (.error e, s') => ⟨.error e, s', calls ++ [(x, name, got)]⟩

/-- `_dispatch`, session.py:115-126; `thread.exit` raises `SystemExit`. -/
def dispatch (h : Handlers σ) (fuel : Nat) (name : Text) (got : Got) (s : Sess σ) : Delivery σ :=
  if s.termReq then ⟨.error .systemExit, { s with terminated := true }, []⟩
  else deliver h name got fuel 0 s []

/-- What `self.expect([CRLF, 'login: '])` does: index (0, 1 or, at the end of the data, -1) and text up to
the end of the match, or an exception. -/
inductive Recv where
  | got (nth : Int) (s : Text)
  | raised (e : PyErr)
  deriving DecidableEq, Repr

/-- session.py:101-102 -/
def received (nth : Int) (s : Text) : Text := if nth = 0 then s.take (s.length - 2) else s

/-- One round of the listener: what other threads do to the session before `is_active` and while `expect`
waits, and what `expect` gives. -/
structure Round (σ : Type) where
  before : Sess σ → Sess σ
  during : Sess σ → Sess σ
  recv : Recv

/-- What listening comes to: whether the thread has ended, the session, the calls of handlers. -/
structure Listened (σ : Type) where
  ended : Bool
  sess : Sess σ
  calls : List Call

/-- The handlers of exceptions, session.py:104-112. -/
def listenerExcept (h : Handlers σ) (fuel : Nat) (e : PyErr) (s : Sess σ) : Listened σ :=
  match e with
  | .socketError =>
    let d := dispatch h fuel t!"socket_error" (.exc e) s
    ⟨true, d.sess, d.calls⟩
  | .eofError =>
    let d := dispatch h fuel t!"EOFError" (.exc e) s
    ⟨true, d.sess, d.calls⟩
  | _ => ⟨true, s, []⟩

/-- Calls made before. -/
def Listened.after (l : Listened σ) (calls : List Call) : Listened σ := { l with calls := calls ++ l.calls }

/-- `_listener`, session.py:94-112, for a sequence of rounds. -/
def listen (h : Handlers σ) (order : Phase → List Text) (fuel : Nat) :
    List (Round σ) → Monster → Sess σ → Listened σ
  | [], _, s => ⟨false, s, []⟩
  | r :: rs, m, s =>
    if (r.before s).active then
      match r.recv with
      | .raised e => listenerExcept h fuel e (r.during (r.before s))
      | .got nth t =>
        match m.makeCookie order (received nth t) with
        | (.error e, _) => listenerExcept h fuel e (r.during (r.before s))
        | (.ok c, m') =>
          let d := dispatch h fuel c (.text (received nth t)) (r.during (r.before s))
          match d.result with
          | .ok _ => (listen h order fuel rs m' d.sess).after d.calls
          | .error e => (listenerExcept h fuel e d.sess).after d.calls
    else ⟨true, r.before s, []⟩

end Bglib
