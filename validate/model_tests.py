#!/usr/bin/env python3
"""Writes lean/Verif/Check/ModelTests.lean: the tests of model/boardeditor_test.py, model/board_test.py and
model/move_test.py (those of MoveFactory), read from the source, as lists of steps."""
import ast
import re

R = '/repo/bglib/model/'
SKIP = []


def tests(name):
  src = re.sub(r'^(\s*)print .*$', r'\1pass', open(R + name).read(), flags=re.M)
  for c in ast.parse(src).body:
    if isinstance(c, ast.ClassDef):
      for m in {m.name: m for m in c.body if isinstance(m, ast.FunctionDef)}.values():
        if m.name.endswith('_test') and len(m.args.args) == 1:
          yield m


def lit(s):
  return 't!"' + s.replace('\\', '\\\\').replace('"', '\\"').replace('\n', '\\n') + '"'


FIELD = dict(cube_in_logarithm='cube', cube_owner='cubeOwner', on_action='onAction', on_inner_action='onInnerAction',
             game_state='gameState', match_length='matchLength', resign_offer='resignOffer')
PRED = dict(is_cube_take_or_pass='isCubeTakeOrPass', is_to_accept_resign='isToAcceptResign',
            is_leagal_to_roll='isLegalToRoll', is_leagal_to_move='isLegalToMove',
            is_leagal_to_redouble='isLegalToRedouble', is_leagal_to_resign='isLegalToResign')
PYPRED = dict(is_leagal_to_double='isLegalToDouble', has_chequer_to_move='hasChequerToMove',
              is_open_to_land='isOpenToLand', is_hitting_to_land='isHittingToLand')
ACT = dict(double='double', take='take', drop='drop', accept_resign='acceptResign', reject_resign='rejectResign')


def val(e):
  """A Python value as a Lean term."""
  if isinstance(e, ast.Name):
    return {'True': 'true', 'False': 'false'}.get(e.id, e.id)
  if isinstance(e, ast.Constant):
    return {True: 'true', False: 'false'}[e.value] if isinstance(e.value, bool) else str(e.value)
  if isinstance(e, ast.UnaryOp):
    return '(-%s)' % val(e.operand)
  if isinstance(e, ast.Tuple):
    xs = [val(x) for x in e.elts]
    return '[%s]' % ', '.join(xs) if len(xs) > 2 else '(%s)' % ', '.join(xs)
  raise ValueError(ast.dump(e))


def board(kw):
  return '{ %s }' % ', '.join('%s := %s' % (FIELD.get(k.arg, k.arg), val(k.value)) for k in kw)


def pt(e):
  """move_pton('5'); the tests give only constants."""
  return lit(e.args[0].value)


def found(s):
  """What is expected: a text of the movements, or nothing."""
  if s.startswith('<MoveFactory.Error'):
    return 'none'
  return '(some %s)' % lit(', '.join(re.findall(r'<PartialMove: ([^>]*)>', s)))


def step(st):
  if isinstance(st, ast.Assign):
    t, v = st.targets[0], st.value
    if isinstance(t, ast.Name) and isinstance(v, ast.Call) and isinstance(v.func, ast.Name):
      n = v.func.id
      if n == 'MoveFactory':
        return '.factory'
      if n in ('Board', 'BoardEditor') and not v.args:
        return '.start %s' % board(v.keywords)
      if n == 'BoardEditor':
        return None
      if n == 'PartialMove':
        return '.piece ⟨%s⟩' % ', '.join(val(a) for a in v.args)
    if isinstance(t, ast.Name) and isinstance(v, ast.Call):
      n = v.func.attr
      if n == 'guess_your_single_pm_from_source':
        return '.source %s' % pt(v.args[0])
      if n == 'guess_your_single_pm_from_dest':
        return '.dest %s' % pt(v.args[0])
      if n == 'guess_your_multiple_pms':
        return '.multiple %s %s' % tuple(map(pt, v.args))
      if n == 'guess_your_multiple_partial_undoes':
        return '.undoes %s %s' % tuple(map(pt, v.args))
      if n == 'guess_your_making_point':
        return '.point %s' % pt(v.args[0])
    if isinstance(t, ast.Name) and isinstance(v, ast.Constant) and v.value is None:
      return None
    if isinstance(t, ast.Attribute):
      return '.edit fun b => { b with %s := %s }' % (FIELD.get(t.attr, t.attr), val(v))
  if isinstance(st, ast.Expr) and isinstance(st.value, ast.Constant) or isinstance(st, ast.Pass):
    return None
  c = st.value
  n = c.func.attr
  if n in ACT:
    return '.act fun b => b.%s %s' % (ACT[n], val(c.args[0]))
  if n == 'offer_resign':
    return '.act fun b => b.offerResign %s %s' % tuple(map(val, c.args))
  if n == 'flip':
    return '.act Board.flip'
  if n == 'make_partial_move':
    return '.move'
  if n == 'append':
    return '.append'
  if n == 'add':
    return '.add'
  if n in ('assert_', 'assertFalse'):
    want = 'true' if n == 'assert_' else 'false'
    e = c.args[0]
    if len(c.args) == 2:
      # assert_(position, expected): the second argument is a message, but it is what was meant
      return '.holds fun b => b.position == (%s, %s)' % tuple(map(val, c.args[1].elts))
    if isinstance(e, ast.UnaryOp) and isinstance(e.op, ast.Not):
      e, want = e.operand, {'true': 'false', 'false': 'true'}[want]
    if isinstance(e, ast.Compare) and isinstance(e.left, ast.Name):
      return '.something'
    if isinstance(e, ast.Name):
      return '.nothing'
    if isinstance(e, ast.Attribute):
      return '.holds fun b => b.%s == %s' % (FIELD.get(e.attr, e.attr), want)
    m = e.func.attr
    if m == 'is_leagal_to_pickup_dice':
      return '.pickup %s' % want
    if m in PRED:
      return '.holds fun b => b.%s %s == %s' % (PRED[m], val(e.args[0]), want)
    if m in PYPRED:
      return '.holds fun b => b.%s %s == .ok %s' % (PYPRED[m], val(e.args[0]), want)
  if n == 'assertEqual':
    a, w = c.args
    if isinstance(a, ast.Call) and isinstance(a.func, ast.Name) and a.func.id in ('repr', 'str'):
      x = a.args[0]
      if isinstance(x, ast.Name):
        return '.found %s' % found(w.value) if a.func.id == 'repr' else None
      if isinstance(x, ast.Attribute) and x.attr == 'move':
        return '.recorded %s' % found(w.value) if a.func.id == 'repr' else None
      if isinstance(x, ast.Attribute) and x.attr == 'available':
        return '.dice [%s]' % ', '.join(re.findall(r', (\d+)\)', w.value))
      if isinstance(x, ast.Call):
        return None
    if isinstance(a, ast.Call) and a.func.attr == 'get_max':
      return '.best %s' % val(w)
    if isinstance(a, ast.Call) and a.func.attr == 'find_src_of_bearoff_with':
      return '.holds fun b => b.findSrcOfBearoffWith %s == .ok %s' % (
          val(a.args[0]), 'none' if w.value is None else '(some %s)' % val(w))
    if isinstance(a, ast.Call) and a.func.attr == 'has_chequer_to_move':
      return '.chequers %s %s' % (pt(a.args[0]), val(w))
    if isinstance(a, ast.Subscript):
      return '.holds fun b => b.position.1 == %s' % val(w)
    if isinstance(a, ast.Attribute) and a.attr == 'position':
      return '.holds fun b => b.position == (%s, %s)' % tuple(map(val, w.elts))
    if isinstance(a, ast.Attribute):
      return '.holds fun b => b.%s == %s' % (FIELD.get(a.attr, a.attr), val(w))
  raise ValueError(ast.dump(st))


out = []
for name, pat in (('board_test.py', 'find_src|is_open|is_hitting|cube_'), ('boardeditor_test.py', '^(?!new_via|make_test)'),
                  ('move_test.py', '^mf_')):
  for m in tests(name):
    if re.search(pat, m.name):
      out.append((name.split('_')[0] + '_' + m.name, [s for s in map(step, m.body) if s]))
with open('/verif/lean/Verif/Check/ModelTests.lean', 'w') as f:
  f.write('import Verif.Check.Model\n/-\nTests of `model/board_test.py`, `boardeditor_test.py` and `move_test.py`; written by `validate/model_tests.py`.\n-/\n'
          'namespace Bglib.Check\n')
  for n, ss in out:
    f.write('\ndef %s : List TestStep := [\n  %s]\n' % (n, ',\n  '.join(ss)))
  f.write('\ndef modelTests : List (String × List TestStep) := [\n  ' + ',\n  '.join('("%s", %s)' % (n, n) for n, _ in out) + ']\n')
  f.write('\nend Bglib.Check\n')
print(len(out))
