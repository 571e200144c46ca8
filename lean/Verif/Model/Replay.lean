import Verif.Model.Regex
/-
Model of the programs that play recorded sessions, `bglib/protocol/server.py` and `Scenario` of
`bglib/protocol/networkplayer.py`.
-/
namespace Bglib.Replay
open Bglib

/-- `serve_forever`, server.py:13-23: what the client gets.  `takes` are the answers of `conn.send`: how much of a line
it takes at most (a socket may take less than it is given; the code does not look at the answer).  Behind the list
everything is taken.  Simplification: the connection is not lost. -/
def serve : List Nat → List Text → Text
  | _, [] => []
  | [], l :: ls => l ++ serve [] ls
  | k :: ks, l :: ls => l.take k ++ serve ks ls

/-- `Scenario`, networkplayer.py:205-213.  Times are in milliseconds. -/
structure Scenario where
  lines : List Text
  fired : Bool := false
  auto : Bool := false
  interval : Nat := 0
  last : Nat
  pulsed : Bool := false
deriving DecidableEq, Repr

/-- `is_expired`, networkplayer.py:224-229 -/
def Scenario.expired (s : Scenario) (now : Nat) : Bool :=
  if s.auto then decide (now - s.last < s.interval) else s.pulsed

/-- `get_line`, networkplayer.py:231-234; behind the end of the file a line is empty. -/
def Scenario.getLine (s : Scenario) (now : Nat) : Option Text × Scenario :=
  if s.fired && s.expired now then (some (s.lines.headD []), { s with lines := s.lines.drop 1, pulsed := false })
  else (none, s)

/-- `trigger`, networkplayer.py:221-222: the module does not import `re`. -/
def Scenario.trigger (_ : Scenario) : Py Unit := .error .nameError

/-- What can be done with a scenario: `pulse`, networkplayer.py:215-216, and `get_line`. -/
inductive Call where
  | pulse
  | ask (now : Nat)
deriving DecidableEq, Repr

/-- The lines given by a sequence of calls, and the scenario after them. -/
def Scenario.run : Scenario → List Call → List Text × Scenario
  | s, [] => ([], s)
  | s, .pulse :: cs => Scenario.run { s with pulsed := true } cs
  | s, .ask now :: cs =>
    match s.getLine now with
    | (none, s) => s.run cs
    | (some l, s) => let r := s.run cs; (l :: r.1, r.2)

/-- The values `poller` handles: `poll` answers numbers of files, the window keeps the socket object. -/
inductive Handle where
  | number (fd : Nat)
  | socket (fd : Nat)
deriving DecidableEq, Repr

/-- The window, networkplayer.py:120-121 and 133-134: the listening socket, and the files given to `register`. -/
structure Window where
  ssock : Option Handle
  registered : List Nat
deriving DecidableEq, Repr

/-- `OnStart`, networkplayer.py:127-136, with the number the system gives the socket.  Simplification: `bind` and
`listen` go through. -/
def Window.start (w : Window) (fd : Nat) : Window := ⟨some (.socket fd), w.registered ++ [fd]⟩

/-- `sock.accept()`, networkplayer.py:146, giving a connection with the number `conn`; a number has no `accept`. -/
def Handle.accept (conn : Nat) : Handle → Py Nat
  | .socket _ => .ok conn
  | .number _ => .error .attributeError

/-- `sock.recv()`, networkplayer.py:151: a number has no `recv`, and that of a socket needs a size. -/
def Handle.recv : Handle → Py Unit
  | .socket _ => .error .typeError
  | .number _ => .error .attributeError

/-- One pass of the loop in `poller`, networkplayer.py:139-158: `fd` and `event` are what `poll` answers, `conn` the
number of a connection, should one be accepted.  `select.POLLIN` is 1 and `select.POLLOUT` 4; there is no `f`. -/
def Window.handle (w : Window) (conn fd event : Nat) : Py Window :=
  if some (Handle.number fd) = w.ssock then
    match Handle.accept conn (.number fd) with
    | .ok c => .ok { w with registered := w.registered ++ [c] }
    | .error e => .error e
  else if event % 2 = 1 then
    match Handle.recv (.number fd) with
    | .ok _ => .ok w
    | .error e => .error e
  else if event / 4 % 2 = 1 then .error .nameError
  else .ok w

/-- `poller`, networkplayer.py:138-158, with what `poll(0)` answers. -/
def Window.poller (conn : Nat) : Window → List (Nat × Nat) → Py Window
  | w, [] => .ok w
  | w, (fd, event) :: rs =>
    match w.handle conn fd event with
    | .ok w => Window.poller conn w rs
    | .error e => .error e

/-- `MyApp`, networkplayer.py:160-201: the scenarios by the names of their files, whether `rfile` and `wfile` have been
set, and `actives`, if that has been set.  The module itself sets none of the three. -/
structure App where
  scenarios : List (Text × Scenario) := []
  connected : Bool := false
  actives : Option (List Scenario) := none

/-- `add`, networkplayer.py:181-183; `read` gives the lines of a file, or there is none.  A name given again replaces the
scenario of that name. -/
def App.add (read : Text → Option (List Text)) (now : Nat) (name : Text) (a : App) : Py App :=
  match read name with
  | none => .error .ioError
  | some ls => .ok { a with scenarios := a.scenarios.filter (fun x => x.1 ≠ name) ++ [(name, { lines := ls, last := now })] }

/-- `start_polling`, networkplayer.py:185-187: timers have `Start`, but no `start`. -/
def App.startPolling (_ : App) : Py App := .error .attributeError

/-- The lines of the active scenarios, networkplayer.py:197-200: what is written, and the scenarios after it.  An empty
line is not written. -/
def activeLines (now : Nat) : List Scenario → List Text × List Scenario
  | [] => ([], [])
  | s :: ss =>
    let r := activeLines now ss
    match s.getLine now with
    | (some [], s) => (r.1, s :: r.2)
    | (some l, s) => (l :: r.1, s :: r.2)
    | (none, s) => (r.1, s :: r.2)

/-- `OnPoll`, networkplayer.py:189-200, when the other side says `line`: what is written, and the program after it.  The
loop over the scenarios goes over their names, and a text has no `trigger`. -/
def App.onPoll (now : Nat) (_line : Text) (a : App) : Py (List Text × App) :=
  if a.connected = false then .error .attributeError
  else if a.scenarios ≠ [] then .error .attributeError
  else match a.actives with
    | none => .error .attributeError
    | some ss => .ok ((activeLines now ss).1, { a with actives := some (activeLines now ss).2 })

end Bglib.Replay
