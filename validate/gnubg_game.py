# Writes Verif/Check/GnubgGame.lean from record/gnubg_test.py: python3 gnubg_game.py > .../GnubgGame.lean
import re, ast, os
here = os.path.dirname(os.path.abspath(__file__))
src = open('/repo/bglib/record/gnubg_test.py').read()
ds = [ast.literal_eval(m) for m in re.findall(r"d = (\{.*?\})", src, re.S)]
rows = []
for d in ds:
  if d['action'] != 'move':
    continue
  mv = ', '.join('(%d, %d)' % m for m in d['move'])
  rows.append('  (t!"%s", (%d, %d), [%s])' % (d['board'], d['dice'][0], d['dice'][1], mv))
head = 'import Verif.Model.GnubgId\nimport Verif.Model.MoveFactory\nimport Verif.Model.Regex\n/-\nEvidence for the model of moves: the game recorded by GNU Backgammon in `record/gnubg_test.py`.\n-/\nnamespace Bglib.Check\nopen Bglib\n\n/-- The records with the action `move`: the position, the dice and the movements.  (The tests do not use them.) -/\ndef gnubgGame : List (Text × (Int × Int) × List (Int × Int)) := [\n'
old = open(os.path.join(here, '../lean/Verif/Check/GnubgGame.lean')).read()
tail = old[old.index(']\n\n/-- The rows of the player'):]
print(head + ',\n'.join(rows) + tail, end='')
