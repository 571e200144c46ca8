#!/usr/bin/env python3
"""Writes lean/Verif/Check/WikiTests.lean: the texts and the HTML of the tests in doc/bgwiki_test.py and
doc/macro_test.py, read from the source."""
import ast
import re

R = '/repo/bglib/doc/'


def tests(name, cls):
  src = re.sub(r'^(\s*)print .*$', r'\1pass', open(R + name).read(), flags=re.M)
  for c in ast.parse(src).body:
    if isinstance(c, ast.ClassDef) and c.name == cls:
      # a method defined twice is the last one
      for m in {m.name: m for m in c.body}.values():
        if m.name.startswith('test_'):
          yield m


def calls(m, attr):
  return [c for c in ast.walk(m) if isinstance(c, ast.Call) and isinstance(c.func, ast.Attribute) and c.func.attr == attr]


def lit(s):
  return 't!"' + s.replace('\\', '\\\\').replace('"', '\\"').replace('\n', '\\n') + '"'


wiki = []
for m in tests('bgwiki_test.py', 'FormatterTest'):
  p, e = calls(m, 'parse'), calls(m, 'assertHtmlEqual')
  if p and e:
    wiki.append((m.name, '.' + p[0].func.value.attr + 's', lit(ast.literal_eval(p[0].args[0])), ast.literal_eval(e[0].args[1])))
for m in tests('macro_test.py', [c.name for c in ast.parse(re.sub(r'^(\s*)print .*$', r'\1pass', open(R + 'macro_test.py').read(),
                                                                 flags=re.M)).body if isinstance(c, ast.ClassDef)][0]):
  p, e = calls(m, 'dispatch'), calls(m, 'assertHtmlEqual')
  if p and e:
    n, a = (ast.literal_eval(x) for x in p[0].args[1:])
    wiki.append((m.name, '(.macro %s)' % lit(n), 'none' if a is None else '(some %s)' % lit(a), ast.literal_eval(e[0].args[1])))

with open('/verif/lean/Verif/Check/WikiTests.lean', 'w') as f:
  f.write('import Verif.Check.Wiki\n/-\nThe tests of `doc/bgwiki_test.py` and `doc/macro_test.py`; written by `validate/wiki_tests.py`.\n-/\nnamespace Bglib.Check\n')
  for i, (n, k, t, e) in enumerate(wiki):
    f.write('\ndef %s : WikiTest := ⟨%s,\n  %s,\n  %s⟩\n' % (
        n, {'.wikis': '.wiki', '.lines': '.line'}.get(k, k), t if k.startswith('(') else '(some %s)' % t, lit(e)))
  f.write('\ndef wikiTests : List (String × WikiTest) := [\n  ' + ',\n  '.join('("%s", %s)' % (n, n) for n, *_ in wiki) + ']\n')
  f.write('\nend Bglib.Check\n')
print(len(wiki))
