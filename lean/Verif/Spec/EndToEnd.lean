import Verif.Spec.Session
import Verif.Spec.Telnet
import Verif.Spec.Message
/-
What a client should be told of what a server sends (C117): from packets to calls of handlers.
-/
namespace Bglib.Spec
open Bglib

variable {σ : Type}

/-- Other threads leave subscriptions and connection alone in this round. -/
def Undisturbed (r : Round σ) : Prop :=
  ∀ s, (r.before s).subs = s.subs ∧ (r.before s).active = s.active ∧ (r.before s).termReq = s.termReq ∧
    (r.during s).subs = s.subs ∧ (r.during s).active = s.active ∧ (r.during s).termReq = s.termReq

/-- These are rounds of a listener that reads from a connection that brings the packets; `closed` tells whether the server
closes it then. -/
def Reading (closed : Bool) (packets : List Text) (rounds : List (Round σ)) : Prop :=
  Telnet.Receives closed (.new packets) (rounds.map (·.recv)) ∧ ∀ r ∈ rounds, Undisturbed r

/-- A session that is open, with room for its subscribers. -/
def Ready (s : Sess σ) (fuel : Nat) : Prop := s.active = true ∧ s.termReq = false ∧ s.subs.length < fuel

/-- The lines of a text that is complete, the last one with an end or without. -/
def linesOf (t : Text) : List Text := (crlfLines t).1 ++ if (crlfLines t).2 = [] then [] else [(crlfLines t).2]

/-- Lines as they are sent. -/
def asLines (ls : List Text) : Text := ls.flatMap (· ++ Telnet.CRLF)

/-- How the end of the connection is told. -/
def goodbyes (h : Handlers σ) (subs : List Sub) : List Call := wanted h t!"EOFError" (.exc .eofError) subs

/-- The calls for lines whose cookies are known. -/
def told (h : Handlers σ) (subs : List Sub) (ls : List (Text × Text)) : List Call :=
  ls.flatMap fun x => wanted h x.2 (.text x.1) subs

/-- A line of the run phase with its cookie: one of the interface for clients or one about games (C109, C110). -/
def Talk (x : Text × Text) : Prop :=
  ∃ f, FilledIn f x.1 ∧ ((f, x.2) ∈ clips ∧ ¬ LikeStatistics x.1 ∨ (f, x.2) ∈ gameTalk)

/-- A login, as FIBS does it: a welcome before the prompt, where the server waits; then the interface for clients. -/
structure Login where
  /-- before the prompt -/
  before : List Text
  /-- `1 …`, `2 …` -/
  welcome : Text
  info : Text
  motd : List Text

def Login.Ok (l : Login) : Prop :=
  (∀ t ∈ l.before, t ≠ t!"3" ∧ t ≠ t!"3\n") ∧
  (∃ f, (f, t!"CLIP_WELCOME") ∈ greetings ∧ FilledIn f l.welcome) ∧
  (∃ f, (f, t!"CLIP_OWN_INFO") ∈ greetings ∧ FilledIn f l.info) ∧
  ∀ t ∈ l.motd, t ≠ t!"4" ∧ t ≠ t!"4\n"

/-- What is sent after the prompt, and the cookies of it. -/
def Login.after (l : Login) : List (Text × Text) :=
  [(l.welcome, t!"CLIP_WELCOME"), (l.info, t!"CLIP_OWN_INFO"), (t!"3", t!"CLIP_MOTD_BEGIN")] ++
    l.motd.map (fun t => (t, t!"FIBS_MOTD")) ++ [(t!"4", t!"CLIP_MOTD_END")]

end Bglib.Spec
