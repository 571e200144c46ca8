import Verif.Model.CookieTable
/-
Model of the message classifier, `bglib/protocol/fibs.py`.

The iteration order of a class
dictionary (`self.__class__.__dict__.items()`, fibs.py:40) is not specified by Python and is a parameter
`order`; entries whose names begin neither with `CLIP` nor with `FIBS` are left out of it, the loop
skips them.  Logging is left out, and so is the handling of `re.error`, which matching does not raise.
-/
namespace Bglib

/-- A later assignment replaces an earlier one to the same name. -/
def lastWins : Table → Table
  | [] => []
  | e :: r => if (r.any fun x => x.1 == e.1) then lastWins r else e :: lastWins r

/-- The class attributes of `RunState`. -/
def runTable : Table := lastWins runSource

/-- The states of the monster; `LogoutState` (fibs.py:473-475) is never entered. -/
inductive Phase where
  | login | motd | run
  deriving DecidableEq, Repr

def tableOf : Phase → Table
  | .login => loginTable
  | .motd => motdTable
  | .run => runTable

/-- `State.regexp_cache`, fibs.py:32: one dictionary for all states, by name only. -/
abbrev Cache := List (Text × List (List Item))

structure Monster where
  phase : Phase
  lastMatch : List Text
  cache : Cache

/-- The `__init__` of the states, fibs.py:76-77, 452-453, 464-465. -/
def initialLast : Phase → List Text
  | .login => [t!"CLIP_WELCOME"]
  | .motd => [t!"FIBS_MOTD"]
  | .run => [t!"CLIP_WHO_INFO"]

/-- fibs.py:23-24 -/
def Monster.new : Monster := ⟨.login, initialLast .login, []⟩

/-- `[re.compile(regexp) for regexp in value]`, fibs.py:48; `none` for a pattern outside the model. -/
def compileAll (ps : List Text) : Option (List (List Item)) := ps.mapM compileRe

/-- The loop fibs.py:57-63 (85-91) over the names of `last_match_first`, with the candidates of
fibs.py:43-50: result and cache afterwards. -/
def tryNames (tbl : Table) (msg : Text) : List Text → Cache → Py (Option Text) × Cache
  | [], cache => (.ok none, cache)
  | name :: names, cache =>
    match tbl.lookup name with
    | none => (.error .attributeError, cache)
    | some value =>
      match (match cache.lookup name with
        | some v => some (v, cache)
        | none => (compileAll value).map fun v => (v, (name, v) :: cache)) with
      | none => (.error .notImplemented, cache)
      | some (v, cache) =>
        if v.any (fun r => matchItems r msg) then (.ok (some name), cache)
        else tryNames tbl msg names cache

/-- `default`, fibs.py:51-52, 458-459, 470-471; `RunState` returns the same as `State`. -/
def defaultCookie : Phase → Text
  | .login => t!"FIBS_PreLogin"
  | .motd => t!"FIBS_MOTD"
  | .run => t!"FIBS_Unknown"

/-- `make_cookie` of the states, fibs.py:56-64 and 82-92, with `bring_to_top`, 66-71. -/
def Monster.stateCookie (m : Monster) (order : Phase → List Text) (msg : Text) : Py Text × Monster :=
  if m.phase = .run ∧ msg = [] then (.ok t!"FIBS_Empty", m)
  else
    match tryNames (tableOf m.phase) msg (m.lastMatch ++ order m.phase) m.cache with
    | (.ok (some name), cache) => (.ok name, ⟨m.phase, name :: m.lastMatch.erase name, cache⟩)
    | (.ok none, cache) => (.ok (defaultCookie m.phase), ⟨m.phase, m.lastMatch, cache⟩)
    | (.error e, cache) => (.error e, ⟨m.phase, m.lastMatch, cache⟩)

/-- `next_state`, fibs.py:78-81, 454-457, 466-469 -/
def Monster.nextState (m : Monster) (cookie : Text) : Monster :=
  match m.phase with
  | .login => if cookie = t!"CLIP_MOTD_BEGIN" then ⟨.motd, initialLast .motd, m.cache⟩ else m
  | .motd => if cookie = t!"CLIP_MOTD_END" then ⟨.run, initialLast .run, m.cache⟩ else m
  | .run => if cookie = t!"FIBS_Goodbye" then ⟨.login, initialLast .login, m.cache⟩ else m

/-- `CookieMonster.make_cookie`, fibs.py:25-28 -/
def Monster.makeCookie (m : Monster) (order : Phase → List Text) (msg : Text) : Py Text × Monster :=
  match m.stateCookie order msg with
  | (.ok cookie, m') => (.ok cookie, m'.nextState cookie)
  | (.error e, m') => (.error e, m')

/-- The monster after a sequence of messages. -/
def Monster.after (m : Monster) (order : Phase → List Text) : List Text → Monster
  | [] => m
  | msg :: msgs => (m.makeCookie order msg).2.after order msgs

end Bglib
