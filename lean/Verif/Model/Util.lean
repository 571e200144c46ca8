import Verif.Model.Board
import Verif.Model.Text
/-
Model of the text conversions of `bglib/model/util.py`.  Arguments are byte strings.
-/
namespace Bglib

/-- constants.py:13, `OWNER_STRING = ('your', 'his', None, 'center')` -/
def ownerString : List (Option Text) :=
  [some ['y','o','u','r'], some ['h','i','s'], none, some ['c','e','n','t','e','r']]

def tHome : Text := [' ','h','o','m','e']
def tBar : Text := [' ','b','a','r']

/-- util.py:14-26 -/
def positionPton (p : Text) (onAction : Int) : Py Int :=
  if p = ['y','o','u','r'] ++ tHome ∨ p = ['h','i','s'] ++ tHome then .ok (-1)
  else if p = ['y','o','u','r'] ++ tBar ∨ p = ['h','i','s'] ++ tBar then .ok 24
  else match pyInt p with
    | none => .error .valueError
    | some i =>
      if 0 < i ∧ i < 25 then
        if onAction = YOU then .ok (i - 1) else .ok (24 - i)
      else .error .valueError

/-- `OWNER_STRING[on_action] + suffix`, util.py:30, 39 -/
def ownerPlus (onAction : Int) (suffix : Text) : Py Text := do
  match ← pyGet ownerString onAction with
  | some s => return s ++ suffix
  | none => .error .typeError

/-- util.py:28-41 -/
def positionNtop (n onAction : Int) : Py Text :=
  if n < 0 then ownerPlus onAction tHome
  else if 0 ≤ n ∧ n < 24 then
    if onAction = YOU then .ok (pyStr (n + 1))
    else if onAction = HIM then .ok (pyStr (24 - n))
    else .error .valueError
  else if n = 24 then ownerPlus onAction tBar
  else .error .valueError

/-- util.py:43-51 -/
def moveNtop (n : Int) : Py Text :=
  if n < 0 then .ok ['o','f','f']
  else if 0 ≤ n ∧ n < 24 then .ok (pyStr (n + 1))
  else if n = 24 then .ok ['b','a','r']
  else .error .valueError

/-- util.py:53-64 -/
def movePton (p : Text) : Py Int :=
  if p = ['b','a','r'] then .ok 24
  else if p = ['o','f','f'] then .ok (-1)
  else match pyInt p with
    | none => .error .valueError
    | some i => if 0 ≤ i ∧ i ≤ 25 then .ok (i - 1) else .error .valueError

end Bglib
