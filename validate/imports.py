#!/usr/bin/env python3
"""Writes lean/Verif/Model/ImportTable.lean: what each module of bglib does when it is imported, as far as
names go, and which global names its functions use.  Reads the sources as text (lib2to3 turns Python 2 into
Python 3 so that `ast` can parse it; nothing is run).

usage: imports.py /repo > lean/Verif/Model/ImportTable.lean
"""
import ast, os, re, sys, warnings
warnings.simplefilter('ignore')
from lib2to3 import refactor
fixers=[f for f in refactor.get_fixers_from_package('lib2to3.fixes') if f.split('fix_')[1] in ('print','except','raise','exec','repr','ne','numliterals','tuple_params')]
rt=refactor.RefactoringTool(fixers)
PY2B=set("""ArithmeticError AssertionError AttributeError BaseException DeprecationWarning EOFError Ellipsis EnvironmentError Exception False FloatingPointError FutureWarning GeneratorExit IOError ImportError ImportWarning IndentationError IndexError KeyError KeyboardInterrupt LookupError MemoryError NameError None NotImplemented NotImplementedError OSError OverflowError PendingDeprecationWarning ReferenceError RuntimeError RuntimeWarning StandardError StopIteration SyntaxError SyntaxWarning SystemError SystemExit TabError True TypeError UnboundLocalError UnicodeDecodeError UnicodeEncodeError UnicodeError UnicodeTranslateError UnicodeWarning UserWarning ValueError Warning ZeroDivisionError __import__ abs all any apply basestring bool buffer callable chr classmethod cmp coerce compile complex copyright credits delattr dict dir divmod enumerate eval execfile exit file filter float frozenset getattr globals hasattr hash help hex id input int intern isinstance issubclass iter len license list locals long map max min object oct open ord pow property quit range raw_input reduce reload repr reversed round set setattr slice sorted staticmethod str sum super tuple type unichr unicode vars xrange zip __name__ __file__ __doc__ __debug__""".split())
def ext(path):
    src=open(path,encoding='utf-8',errors='replace').read()
    if not src.endswith('\n'): src+='\n'
    t=str(rt.refactor_string(src,path)) if src.strip() else ''
    return t
def assigned(body_nodes, params=()):
    loc=set(params); glob=set()
    def tgt(n):
        if isinstance(n,ast.Name): loc.add(n.id)
        elif isinstance(n,(ast.Tuple,ast.List)):
            for e in n.elts: tgt(e)
        elif isinstance(n,ast.Starred): tgt(n.value)
    class V(ast.NodeVisitor):
        def visit_FunctionDef(s,n): loc.add(n.name)
        def visit_ClassDef(s,n): loc.add(n.name)
        def visit_Lambda(s,n): pass
        def visit_GeneratorExp(s,n): pass
        def visit_Name(s,n):
            if isinstance(n.ctx,(ast.Store,ast.Del)): loc.add(n.id)
        def visit_Global(s,n): glob.update(n.names)
        def visit_Import(s,n):
            for a in n.names: loc.add(a.asname or a.name.split('.')[0])
        def visit_ImportFrom(s,n):
            for a in n.names: loc.add(a.asname or a.name)
        def visit_ExceptHandler(s,n):
            if n.name: loc.add(n.name)
            s.generic_visit(n)
    for b in body_nodes: V().visit(b)
    return loc-glob
class A:
    def __init__(s,mod,src):
        s.ev=[]; s.later=[]; s.mod=mod
        for st in ast.parse(src).body: s.stmt(st,None,True)
    # scopes: list of sets of local names (function scopes) ; cls: current class-scope set or None
    def out(s,now,e):
        (s.ev if now else s.later).append(e)
    def chain(s,n):
        at=[]
        while isinstance(n,ast.Attribute): at.append(n.attr); n=n.value
        if isinstance(n,ast.Name): return [n.id]+at[::-1]
        return None
    def expr(s,n,sc,now):
        """sc: (cls set or None, function scopes set)"""
        if n is None: return
        if isinstance(n,list):
            for x in n: s.expr(x,sc,now)
            return
        cls,fn=sc
        c=s.chain(n) if isinstance(n,(ast.Attribute,ast.Name)) else None
        if c is not None:
            root=n
            while isinstance(root,ast.Attribute): root=root.value
            if isinstance(root.ctx,ast.Load):
                if not(c[0] in fn or (cls is not None and c[0] in cls)):
                    # an attribute being stored: only prefix must exist
                    if isinstance(n,ast.Attribute) and not isinstance(n.ctx,ast.Load): c=c[:-1]
                    s.out(now,('use',n.lineno,c))
            elif now:
                if cls is None: s.out(now,('bind',n.lineno,c[0]))
                else: cls.add(c[0])
            elif c[0] not in fn: s.out(now,('gbind',n.lineno,c[0]))
            return
        if isinstance(n,ast.Lambda):
            s.expr(n.args.defaults,sc,now)
            ps=[a.arg for a in n.args.args]+([n.args.vararg.arg] if n.args.vararg else [])+([n.args.kwarg.arg] if n.args.kwarg else [])
            s.expr(n.body,(None,fn|set(ps)),False); return
        if isinstance(n,(ast.ListComp,ast.GeneratorExp,ast.SetComp,ast.DictComp)):
            loc=set()
            for g in n.generators:
                for x in ast.walk(g.target):
                    if isinstance(x,ast.Name): loc.add(x.id)
            s2=(cls,fn|loc)
            for g in n.generators:
                s.expr(g.iter,s2,now); s.expr(g.ifs,s2,now)
            if isinstance(n,ast.DictComp): s.expr(n.key,s2,now); s.expr(n.value,s2,now)
            else: s.expr(n.elt,s2,now)
            if isinstance(n,ast.ListComp) and now and cls is None:
                for l in sorted(loc): s.out(now,('bind',n.lineno,l))
            return
        for ch in ast.iter_child_nodes(n):
            s.expr(ch,sc,now)
    def func(s,n,sc,now):
        cls,fn=sc
        s.expr(n.decorator_list,sc,now); s.expr(n.args.defaults,sc,now)
        ps=[a.arg for a in n.args.args]+([n.args.vararg.arg] if n.args.vararg else [])+([n.args.kwarg.arg] if n.args.kwarg else [])
        loc=assigned(n.body,ps)
        for st in n.body: s.stmt(st,(None,fn|loc),False)
    def stmt(s,n,sc,now):
        if sc is None: sc=(None,frozenset())
        cls,fn=sc
        if isinstance(n,ast.If) and isinstance(n.test,ast.Compare) and isinstance(n.test.left,ast.Name) and n.test.left.id=='__name__': return
        if isinstance(n,ast.FunctionDef):
            s.func(n,sc,now)
            if cls is not None: cls.add(n.name)
            elif now: s.out(now,('bind',n.lineno,n.name))
            return
        if isinstance(n,ast.ClassDef):
            s.expr(n.decorator_list,sc,now); s.expr(n.bases,sc,now)
            c2=set()
            for st in n.body: s.stmt(st,(c2,fn),now)
            if cls is not None: cls.add(n.name)
            elif now: s.out(now,('bind',n.lineno,n.name))
            return
        if isinstance(n,ast.Import):
            for a in n.names:
                if now and cls is None: s.out(now,('import',n.lineno,a.name,a.asname))
                else: s.out(now,('localimport',n.lineno,a.name,a.asname))
            return
        if isinstance(n,ast.ImportFrom):
            assert n.level==0
            s.out(now,('from' if now else 'localfrom',n.lineno,n.module,[(a.name,a.asname or a.name) for a in n.names])); return
        if isinstance(n,ast.Assign):
            s.expr(n.value,sc,now); s.expr(n.targets,sc,now); 
            if now and cls is None and len(n.targets)==1 and isinstance(n.targets[0],ast.Name) and n.targets[0].id=='__all__':
                s.out(now,('all',n.lineno,[e.value for e in n.value.elts]))
            return
        if isinstance(n,ast.AugAssign):
            t=n.target
            s.expr(n.value,sc,now)
            if isinstance(t,ast.Name):
                if not(t.id in fn or (cls is not None and t.id in cls)): s.out(now,('use',n.lineno,[t.id]))
            else: s.expr(t,sc,now)
            return
        if isinstance(n,ast.For):
            s.expr(n.iter,sc,now); s.expr(n.target,sc,now)
            for st in n.body+n.orelse: s.stmt(st,sc,now)
            return
        if isinstance(n,(ast.While,ast.If)):
            s.expr(n.test,sc,now)
            for st in n.body+n.orelse: s.stmt(st,sc,now)
            return
        if isinstance(n,ast.Try):
            for st in n.body: s.stmt(st,sc,now)
            for h in n.handlers:
                s.expr(h.type,sc,now)
                for st in h.body: s.stmt(st,sc,now)
            for st in n.orelse+n.finalbody: s.stmt(st,sc,now)
            assert not now
            return
        if isinstance(n,ast.With): 
            raise Exception('with')
        s.expr(list(ast.iter_child_nodes(n)),sc,now)

# run as programs, not imported (and the tests)
SCRIPTS = {'bglib.stat.3knockout', 'bglib.image.resource.convert', 'bglib.protocol.server', 'bglib.encoding.bearoff.test'}
# lib2to3 makes a function of print
KNOWN = PY2B | {'print'}
def load(repo):
    R = {}
    for root, _, fs in os.walk(os.path.join(repo, 'bglib')):
        for f in fs:
            if f.endswith('.py') and not f.endswith('_test.py'):
                p = os.path.join(root, f); rel = os.path.relpath(p, repo)
                m = rel[:-3].replace('/', '.')
                pkg = m.endswith('.__init__')
                if pkg: m = m[:-9]
                if m in SCRIPTS: continue
                a = A(m, ext(p))
                R[m] = (pkg, a.ev, a.later, rel, sum(1 for _ in open(p, encoding='utf-8', errors='replace')))
    return R
def name(n): return 'n!"%s"' % n
def path(p): return 'p!"%s"' % p
def place(R, m, h):
    """where module m finds h: beside itself, at the top ('') or not in the library (None)"""
    pk = m if R[m][0] else m.rpartition('.')[0]
    if pk and pk + '.' + h in R: return pk
    return '' if h in R else None
def at(pl): return 'm!"%s"' % pl if pl else '[]'
def stmts(R, m, e):
    k = e[0]
    if k in ('import', 'from'): pl = place(R, m, e[2].split('.')[0])
    if k == 'import':
        if pl is None: return ['.bind ' + name(e[3] or e[2].split('.')[0])]
        return ['.imp %s %s %s' % (at(pl), path(e[2]), '(some %s)' % name(e[3]) if e[3] else 'none')]
    if k == 'from':
        if pl is None:
            assert e[3][0][0] != '*'
            return ['.bind ' + name(b) for a, b in e[3]]
        if e[3][0][0] == '*': return ['.star %s %s' % (at(pl), path(e[2]))]
        return ['.frm %s %s [%s]' % (at(pl), path(e[2]), ', '.join('(%s, %s)' % (name(a), name(b)) for a, b in e[3]))]
    if k == 'bind': return ['.bind ' + name(e[2])]
    if k == 'all': return ['.all [%s]' % ', '.join(map(name, e[2]))]
    if k == 'use': return ['.use ' + path('.'.join(e[2]))]
    raise Exception(e)
def lines(items, width=104):
    out = []; cur = '   '
    for i, x in enumerate(items):
        x = x + (',' if i + 1 < len(items) else '')
        if len(cur) + 1 + len(x) > width and cur.strip(): out.append(cur); cur = '   '
        cur += ' ' + x
    if cur.strip(): out.append(cur)
    return '\n'.join(out)
def main(repo):
    R = load(repo)
    print("""import Verif.Model.Import
/-
The modules of bglib as far as names go; written by `validate/imports.py` from the sources.
Left out: tests, files that are run as programs (`stat/3knockout.py`, `image/resource/convert.py`,
`protocol/server.py`, `encoding/bearoff/test.py`), and blocks under `if __name__ == '__main__'`.
A name that is used or given more than once is listed once, and uses of the names of Python itself
(`object`, `len` and so on, which are always found) are not listed.  An import inside of a function
(`doc/doctree.py:68`, `doc/fuzzing.py:86-89`) gives a local name, which is not listed.
-/
namespace Bglib.Import
set_option maxRecDepth 20000
""")
    ids = []
    used = set()
    for m in sorted(R):
        pkg, ev, later, rel, n = R[m]
        i = 'm_' + m.replace('.', '_'); ids.append(i)
        seen = set(); once = []
        for e in ev:
            if e[0] in ('use', 'bind'):
                k = repr((e[0], e[2]))
                if e[0] == 'use' and e[2][0] in KNOWN or k in seen: continue
                seen.add(k)
            once.append(e)
        ev = once
        lat = []
        for e in later:
            if e[0] == 'use' and e[2][0] not in KNOWN and e[2] not in lat: lat.append(e[2])
        print('/-- `%s:1-%d`; attributes of values that are not modules, branches and calls are left out. -/' % (rel, max(n, 1)))
        print('def %s : Module where' % i)
        print('  path := m!"%s"' % m); print('  package := %s' % ('true' if pkg else 'false'))
        print('  body := [\n%s]' % lines([x for e in ev for x in stmts(R, m, e)]) if ev else '  body := []')
        print('  later := [\n%s]\n' % lines([path('.'.join(r)) for r in lat]) if lat else '  later := []\n')
    print('/-- All modules of the library. -/\ndef library : Library := [\n%s]\n' % lines(ids))
    print('end Bglib.Import')
if __name__ == '__main__':
    main(sys.argv[1])
