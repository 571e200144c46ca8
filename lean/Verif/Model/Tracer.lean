import Verif.Model.Xgid
import Verif.Model.Editor
import Verif.Model.Regex
/-
Model of `bglib/record/gnubg.py`: following a recorded game action by action.
-/
namespace Bglib

/-- The dictionary given to `set_action`, gnubg.py:27-33.  `none`: the key is missing.  Simplifications:
the values of `action` and `player` are strings; of `board` only the presence is asked; other keys
(`move`, `dice`) are not looked at before an exception is raised. -/
structure ActionDict where
  action : Option Text := none
  player : Option Text := none
  board : Option Text := none
deriving DecidableEq, Repr

/-- The attributes of a tracer, gnubg.py:16-24.  The editor is the board it holds. -/
structure Tracer where
  board : Board
  action : Option ActionDict := none
deriving DecidableEq, Repr

namespace Tracer

/-- gnubg.py:16-18, 24: `Tracer(board=b)`. -/
def ofBoard (b : Board) : Tracer := ⟨b, none⟩

/-- gnubg.py:19-22, 24: `Tracer(gnubgid)`.  The unpacking fails unless there is exactly one colon. -/
def ofId (s : Text) : Py Tracer :=
  match splitChar ':' s with
  | [pid, mid] =>
    match gnubgDecode {} pid mid with
    | ⟨b, none⟩ => .ok ⟨b, none⟩
    | ⟨_, some e⟩ => .error e
  | _ => .error .valueError

/-- gnubg.py:30. -/
def knownActions : List Text := [t!"resign", t!"move", t!"take", t!"drop", t!"double"]

/-- gnubg.py:26-39.  Nothing is assigned. -/
def setAction (t : Tracer) (d : ActionDict) : Py Unit :=
  if t.action ≠ none then .error .assertion
  else match d.action with
    | none => .error .assertion
    | some a =>
      if a ∉ knownActions then .error .assertion
      else match d.player with
        | none => .error .assertion
        | some p =>
          if d.board = none then .error .assertion
          else if p = t!"X" then
            if t.board.onAction = YOU then .ok () else .error .assertion
          else if p = t!"O" then
            if t.board.onAction = HIM then .ok () else .error .assertion
          else .error .assertion

/-- The methods without arguments, gnubg.py:41-81. -/
inductive Ask where
  | rollOrDouble | offeringDouble | takeOrPass | move | pickupOnDice | pickupDice
deriving DecidableEq, Repr

/-- gnubg.py:41-81.  The result is the board returned, `none` for `None`.  `bglib.model.board` is a
module without the name `board` (gnubg.py:60), and a tracer has no method `get_on_done`
(gnubg.py:81): both are AttributeErrors, if the assertion before them holds. -/
def ask (t : Tracer) (k : Ask) : Py (Option Board) :=
  if t.action = none then .error .assertion
  else match k with
    | .rollOrDouble | .offeringDouble | .takeOrPass => .ok none
    | .move => .ok (some t.board)
    | .pickupOnDice | .pickupDice => .error .attributeError

/-- One call of a method of a tracer. -/
inductive Call where
  | set (d : ActionDict)
  | ask (k : Ask)
deriving DecidableEq, Repr

/-- The call made, and the tracer after it, whether or not it raised an exception (no method assigns
to an attribute before it fails). -/
def call (t : Tracer) : Call → Step Tracer
  | .set d => ⟨t, match t.setAction d with | .ok _ => none | .error e => some e⟩
  | .ask k => ⟨t, match t.ask k with | .ok _ => none | .error e => some e⟩

/-- A series of calls; the caller catches what is raised. -/
def calls (t : Tracer) : List Call → Tracer
  | [] => t
  | c :: cs => (t.call c).st.calls cs

end Tracer
end Bglib
