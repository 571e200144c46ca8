import Verif.Model.Session
/-
Model of the threads and the lock of `bglib/protocol/session.py`.

`Prog` is a little language with the control flow of Python that matters here: sequencing, `try` with
`finally` or `except`, and the two operations of `threading.RLock`.  Threads take turns at any point
between two accesses.  Exceptions that arrive from outside between `lock.acquire()` and `try` (such as
`KeyboardInterrupt`) are not modelled.  Values are numbers; texts and objects are passed as numbers
standing for them.
-/
namespace Bglib

/-- The attributes of a session other than `subscribers`, and everything else in `rest`. -/
structure Flags (σ : Type) where
  active : Bool
  termReq : Bool
  terminated : Bool
  rest : σ

inductive Prog (σ : Type) where
  | ret (v : Nat)
  | raise (e : PyErr)
  /-- a loop that never ends -/
  | spin
  /-- one access to `self.subscribers` -/
  | subs (f : List Sub → List Sub) (k : List Sub → Prog σ)
  /-- one access to anything else -/
  | flags (f : Flags σ → Flags σ) (k : Flags σ → Prog σ)
  | acquire (k : Prog σ)
  | release (k : Prog σ)
  | seq (p : Prog σ) (k : Nat → Prog σ)
  | tryFinally (body fin : Prog σ)
  | tryExcept (body : Prog σ) (h : PyErr → Prog σ)

/-- What is to be done when the current piece of program has returned or raised. -/
inductive Frame (σ : Type) where
  | seq (k : Nat → Prog σ)
  | fin (p : Prog σ)
  | except (h : PyErr → Prog σ)
  /-- after a `finally` block: the outcome of its `try` block -/
  | resume (o : Py Nat)

structure Thread (σ : Type) where
  cur : Prog σ
  stack : List (Frame σ)

/-- `threading.RLock`: owner and number of acquisitions. -/
inductive RLock where
  | free
  | held (owner : Nat) (count : Nat)
  deriving DecidableEq, Repr

structure World (σ : Type) where
  subs : List Sub
  flags : Flags σ
  lock : RLock
  threads : Nat → Thread σ

variable {σ : Type}

/-- `acquire` by thread `t`; `none`: it has to wait. -/
def RLock.acquire (l : RLock) (t : Nat) : Option RLock :=
  match l with
  | .free => some (.held t 1)
  | .held o n => if o = t then some (.held o (n + 1)) else none

/-- `release` by thread `t`; `none`: `RuntimeError`. -/
def RLock.release (l : RLock) (t : Nat) : Option RLock :=
  match l with
  | .free => none
  | .held o n => if o = t then some (if n ≤ 1 then .free else .held o (n - 1)) else none

/-- Returning or raising to a frame: the outcome `o` of the current piece. -/
def Frame.receive (f : Frame σ) (o : Py Nat) (st : List (Frame σ)) : Thread σ :=
  match f, o with
  | .seq k, .ok v => ⟨k v, st⟩
  | .seq _, .error e => ⟨.raise e, st⟩
  | .fin p, o => ⟨p, .resume o :: st⟩
  | .except _, .ok v => ⟨.ret v, st⟩
  | .except h, .error e => ⟨h e, st⟩
  | .resume (.ok v), .ok _ => ⟨.ret v, st⟩
  | .resume (.error e), .ok _ => ⟨.raise e, st⟩
  | .resume _, .error e => ⟨.raise e, st⟩

/-- The world after thread `t` has become `th`. -/
def World.put (w : World σ) (t : Nat) (th : Thread σ) : World σ :=
  { w with threads := fun u => if u = t then th else w.threads u }

/-- One step of thread `t`; `none`: it has ended or has to wait. -/
def World.step (w : World σ) (t : Nat) : Option (World σ) :=
  match w.threads t with
  | ⟨.ret v, f :: st⟩ => some (w.put t (f.receive (.ok v) st))
  | ⟨.raise e, f :: st⟩ => some (w.put t (f.receive (.error e) st))
  | ⟨.ret _, []⟩ => none
  | ⟨.raise _, []⟩ => none
  | ⟨.spin, st⟩ => some (w.put t ⟨.spin, st⟩)
  | ⟨.subs f k, st⟩ => some { w.put t ⟨k w.subs, st⟩ with subs := f w.subs }
  | ⟨.flags f k, st⟩ => some { w.put t ⟨k w.flags, st⟩ with flags := f w.flags }
  | ⟨.acquire k, st⟩ =>
    match w.lock.acquire t with
    | some l => some { w.put t ⟨k, st⟩ with lock := l }
    | none => none
  | ⟨.release k, st⟩ =>
    match w.lock.release t with
    | some l => some { w.put t ⟨k, st⟩ with lock := l }
    | none => some (w.put t ⟨.raise .runtimeError, st⟩)
  | ⟨.seq p k, st⟩ => some (w.put t ⟨p, .seq k :: st⟩)
  | ⟨.tryFinally p q, st⟩ => some (w.put t ⟨p, .fin q :: st⟩)
  | ⟨.tryExcept p h, st⟩ => some (w.put t ⟨p, .except h :: st⟩)

/-! ### The methods -/

/-- The `finally` block, session.py:31 -/
def unlock : Prog σ := .release (.ret 0)

/-- `synchronized_with`, session.py:23-34 -/
def synchronized (body : Prog σ) : Prog σ := .acquire (.tryFinally body unlock)

/-- session.py:61-63 -/
def isActiveP : Prog σ := synchronized (.flags id fun f => .ret (if f.active then 1 else 0))

/-- session.py:65-69 -/
def closeP : Prog σ :=
  synchronized (.flags (fun f => { f with active := false }) fun _ =>
    .flags (fun f => { f with termReq := true }) fun _ => .ret 0)

/-- session.py:71-74; `write` may raise. -/
def sendLineP (write : Flags σ → Py Nat) : Prog σ :=
  synchronized (.flags id fun f =>
    match write f with
    | .ok v => .ret v
    | .error e => .raise e)

/-- session.py:56-59; not synchronized -/
def openP : Prog σ := .flags (fun f => { f with active := true }) fun _ => .ret 0

def registerLoop : List Sub → Prog σ
  | [] => .ret 0
  | x :: xs => .subs (fun l => l ++ [x]) fun _ => registerLoop xs

/-- session.py:128-133 -/
def registerP (xs : List Sub) : Prog σ := synchronized (registerLoop xs)

def unregisterLoop : List Sub → Prog σ
  | [] => .ret 0
  | x :: xs => .subs (fun l => l.erase x) fun l => if x ∈ l then unregisterLoop xs else .raise .valueError

/-- session.py:135-139 -/
def unregisterP (xs : List Sub) : Prog σ := synchronized (unregisterLoop xs)

/-- The methods of the subscribers, as programs. -/
abbrev HandlersP (σ : Type) := Sub → Text → Option (Nat → Prog σ)

/-- The loop session.py:119-126; every finite run of it is one with enough fuel. -/
def deliverP (h : HandlersP σ) (name : Text) (got : Nat) : Nat → Nat → Prog σ
  | 0, _ => .spin
  | fuel + 1, i => .subs id fun l =>
    match l[i]? with
    | none => .ret 0
    | some x =>
      match h x name with
      | none => deliverP h name got fuel (i + 1)
      | some p => .seq (p got) fun _ => deliverP h name got fuel (i + 1)

/-- session.py:114-126 -/
def dispatchP (h : HandlersP σ) (fuel : Nat) (name : Text) (got : Nat) : Prog σ :=
  synchronized (.flags id fun f =>
    if f.termReq then .flags (fun f => { f with terminated := true }) fun _ => .raise .systemExit
    else deliverP h name got fuel 0)

/-- The `while` loop session.py:97-103; `recv` is `expect` with the cookie of what it returns, and
`next` its effect. -/
def listenLoopP (h : HandlersP σ) (next : Flags σ → Flags σ) (recv : Flags σ → Py (Text × Nat)) : Nat → Prog σ
  | 0 => .spin
  | fuel + 1 => .seq isActiveP fun a =>
    if a = 0 then .ret 0
    else .flags next fun f =>
      match recv f with
      | .error e => .raise e
      | .ok (name, got) => .seq (dispatchP h fuel name got) fun _ => listenLoopP h next recv fuel

/-- The handlers of exceptions, session.py:104-111. -/
def listenerExceptP (h : HandlersP σ) (fuel : Nat) (e : PyErr) : Prog σ :=
  match e with
  | .socketError => dispatchP h fuel t!"socket_error" 0
  | .eofError => dispatchP h fuel t!"EOFError" 0
  | _ => .ret 0

/-- `_listener`, session.py:94-112 -/
def listenerP (h : HandlersP σ) (next : Flags σ → Flags σ) (recv : Flags σ → Py (Text × Nat)) (fuel : Nat) :
    Prog σ :=
  .seq (.tryExcept (listenLoopP h next recv fuel) (listenerExceptP h fuel)) fun _ => .raise .systemExit

end Bglib
