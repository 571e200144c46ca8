import Verif.Model.Session
/-
Model of how a session reads from the network: `self.expect([CRLF, 'login: '])`, session.py:100, on
`telnetlib.Telnet`, which `Transport` (session.py:37) inherits from.

`telnetlib` comes with Python.  What is modelled: `fill_rawq` takes what one `recv(50)` gives (a chunk; an
empty one is the end), `process_rawq` leaves out the commands of Telnet, and `expect` without a time limit
looks for the patterns, in their order, in all that was read and not yet given out, and reads on if there is
none.  Simplifications: the answers to options are left out; errors of the socket are left out.
-/
namespace Bglib.Telnet
open Bglib

def IAC : Char := Char.ofNat 255
def DONT : Char := Char.ofNat 254
def DO : Char := Char.ofNat 253
def WONT : Char := Char.ofNat 252
def WILL : Char := Char.ofNat 251
def SB : Char := Char.ofNat 250
def SE : Char := Char.ofNat 240
def NUL : Char := Char.ofNat 0
def XON : Char := Char.ofNat 17

/-- `iacseq`: how much of a command was read. -/
inductive Command where
  | none | begun | option
  deriving DecidableEq, Repr

/-- `iacseq` and `sb` of `Telnet`. -/
structure Cook where
  command : Command
  sb : Bool
  deriving DecidableEq, Repr

def Cook.new : Cook := ⟨.none, false⟩

/-- The loop of `process_rawq` for one character, and what goes to `cookedq`. -/
def Cook.next (k : Cook) (c : Char) : Cook × Text :=
  match k.command with
  | .none =>
    if c = NUL ∨ c = XON then (k, [])
    else if c ≠ IAC then (k, if k.sb then [] else [c])
    else ({ k with command := .begun }, [])
  | .begun =>
    if c = DO ∨ c = DONT ∨ c = WILL ∨ c = WONT then ({ k with command := .option }, [])
    else if c = IAC then ({ k with command := .none }, if k.sb then [] else [c])
    else if c = SB then ({ k with command := .none, sb := true }, [])
    else if c = SE then ({ k with command := .none, sb := false }, [])
    else ({ k with command := .none }, [])
  | .option => ({ k with command := .none }, [])

/-- `process_rawq` for what was read. -/
def Cook.run (k : Cook) : Text → Cook × Text
  | [] => (k, [])
  | c :: cs =>
    let (k1, a) := k.next c
    let (k2, b) := k1.run cs
    (k2, a ++ b)

/-- `search` of a pattern of plain letters: the text up to the end of the first match, and the rest. -/
def cutAfter (pat : Text) : Text → Option (Text × Text)
  | [] => if pat = [] then some ([], []) else none
  | c :: t =>
    if (c :: t).take pat.length = pat then some (pat, (c :: t).drop pat.length)
    else (cutAfter pat t).map fun p => (c :: p.1, p.2)

/-- session.py:21 -/
def CRLF : Text := ['\r', '\n']

/-- session.py:100 -/
def PROMPT : Text := t!"login: "

/-- A connection: `cookedq`, the state of `process_rawq`, and what the calls of `recv` will give. -/
structure Conn where
  cooked : Text
  cook : Cook
  chunks : List Text
  deriving DecidableEq, Repr

def Conn.new (chunks : List Text) : Conn := ⟨[], .new, chunks⟩

/-- The patterns in their order. -/
def look (q : Text) : Option (Int × Text × Text) :=
  match cutAfter CRLF q with
  | some (a, b) => some (0, a, b)
  | none =>
    match cutAfter PROMPT q with
    | some (a, b) => some (1, a, b)
    | none => none

/-- `expect([CRLF, 'login: '])`.  When all chunks were read, the connection is closed or `expect` waits, which
is `none`. -/
def expectGo (closed : Bool) : List Text → Text → Cook → Option Recv × Conn
  | cs, q, k =>
    match look q with
    | some (n, a, b) => (some (.got n a), ⟨b, k, cs⟩)
    | none =>
      match cs with
      | [] =>
        if closed then
          if q = [] then (some (.raised .eofError), ⟨[], k, []⟩) else (some (.got (-1) q), ⟨[], k, []⟩)
        else (none, ⟨q, k, []⟩)
      | c :: cs => expectGo closed cs (q ++ (k.run c).2) (k.run c).1

def expect (closed : Bool) (s : Conn) : Option Recv × Conn := expectGo closed s.chunks s.cooked s.cook

/-- What the loop of the listener gets, session.py:97-103, until `expect` raises or waits. -/
inductive Receives (closed : Bool) : Conn → List Recv → Prop where
  | waits {s s' : Conn} (h : expect closed s = (none, s')) : Receives closed s []
  | raised {s s' : Conn} {e : PyErr} (h : expect closed s = (some (.raised e), s')) :
      Receives closed s [.raised e]
  | got {s s' : Conn} {n : Int} {a : Text} {rs : List Recv} (h : expect closed s = (some (.got n a), s'))
      (hr : Receives closed s' rs) : Receives closed s (.got n a :: rs)

/-- `write` of `Telnet`: the character that begins commands is doubled. -/
def write (t : Text) : Text := t.flatMap fun c => if c = IAC then [IAC, IAC] else [c]

/-- `send_line`, session.py:71-74: what goes to the network. -/
def sendLine (line : Text) : Text := write (line ++ CRLF)

end Bglib.Telnet
