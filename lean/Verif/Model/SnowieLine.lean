import Verif.Model.Snowie
import Verif.Model.Wiki
/-
The patterns of the lines of match records, `bglib/record/snowietxt.py`:49-84.

All alternatives begin with `^`, so it makes no difference whether `LineParser` (not in the repository) uses `match`,
`search` or `finditer`: the kind of a line is the first alternative that matches at its beginning.  Texts are us-ascii.
-/
namespace Bglib.Snowie
open Bglib

def digitRe : Re := .any digits
def blanksRe : Re := .star (.ch ' ')

/-- `mathclength`, snowietxt.py:53 -/
def matchLengthRe : Re := .group t!"mathclength" (.all' [.bol, .ch ' ', .plus digitRe, .lit t!" point match"])

/-- `gameheader`, snowietxt.py:55 -/
def gameHeaderRe : Re := .group t!"gameheader" (.all' [.bol, blanksRe, .lit t!"Game ", .plus digitRe])

/-- A name: no comma and no colon. -/
def nameSet : CharSet := ⟨true, [(',', ','), (':', ':')]⟩

/-- `[^,:]+(,\d+)? : \d+`, snowietxt.py:58, 60 -/
def playerRe : Re := .all' [.plus (.set nameSet), .opt (.seq (.ch ',') (.plus digitRe)), .lit t!" : ", .plus digitRe]

/-- `playerheader`, snowietxt.py:57-62 -/
def playerHeaderRe : Re := .group t!"playerheader"
  (.all' [.bol, .ch ' ', .group t!"player1" playerRe, blanksRe, .group t!"player2" playerRe])

/-- `[1-6][1-6]:( [0-9]{1,2}/[0-9]{1,2}\*?])*`, snowietxt.py:68, 74: with a bracket behind each step. -/
def rolledRe (dice steps : Text) : Re :=
  let two : Re := .rep digitRe 1 (some 2)
  .group dice (.all' [.any [('1', '6')], .any [('1', '6')], .ch ':',
    .group steps (.star (.all' [.ch ' ', two, .ch '/', two, .opt (.ch '*'), .ch ']']))])

/-- ` (Takes)|(Doubles => \d+)|(Drops)`, snowietxt.py:70, 76 -/
def actionRe (name : Text) : Re :=
  .group name (.alts [.seq (.ch ' ') (.lit t!"Takes"), .seq (.lit t!"Doubles => ") (.plus digitRe), .lit t!"Drops"])

/-- What may stand behind the number, snowietxt.py:67-79.  `results1` begins with `^` and never matches there. -/
def movesTailRe : Re := .all' [
  .opt (.group t!"player1_action" (.alt (rolledRe t!"rolled1" t!"move1") (actionRe t!"action1"))), blanksRe,
  .opt (.group t!"player2_action" (.alt (rolledRe t!"rolled2" t!"move2") (actionRe t!"action2"))), blanksRe,
  .opt (.group t!"results1" (.all' [.bol, blanksRe, .lit t!"Wins ", .plus digitRe, .lit t!" point", .opt (.ch 's')]))]

/-- `moves`, snowietxt.py:64-80 -/
def movesRe : Re := .group t!"moves" (.all' [.bol, blanksRe, .group t!"nthmove" (.plus digitRe), .ch ')', .plus (.ch ' '),
  movesTailRe])

/-- `results2`, snowietxt.py:82 -/
def resultRe : Re := .group t!"results2" (.all' [.bol, blanksRe, .lit t!"Wins ", .plus digitRe, .lit t!" point", .opt (.ch 's')])

inductive LineName where
  | matchLength | gameHeader | playerHeader | moves | result
  deriving DecidableEq, Repr

/-- The alternatives in their order; `emptyline` is before them and `baddata`, which matches everything, behind. -/
def linePats : List (LineName × Re) := [(.matchLength, matchLengthRe), (.gameHeader, gameHeaderRe),
  (.playerHeader, playerHeaderRe), (.moves, movesRe), (.result, resultRe)]

/-- The kind of a line.  `emptyline`, snowietxt.py:51, is `^\s*\Z`: nothing but blanks.  The number of a line with moves is
`int(d['nthmove'])`, snowietxt.py:116. -/
def kindOf (line : Text) : Kind :=
  if line.all isSpace then .empty
  else match firstPattern linePats ⟨true, line, []⟩ with
    | some (.matchLength, _) => .matchLength
    | some (.gameHeader, _) => .gameHeader
    | some (.playerHeader, _) => .playerHeader
    | some (.moves, _, g, _) => .moves (((Doc.groupOf g t!"nthmove").bind pyInt).getD 0).toNat
    | some (.result, _) => .result
    | none => .bad

/-- A line of a text with its kind. -/
def lineOf (t : Text) : Line := ⟨kindOf t, t⟩

end Bglib.Snowie
