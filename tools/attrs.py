"""Writes lean/Verif/Model/Attributes.lean from pyregpt/pyregpt.py (argument: path of that file, output on stdout)."""
import ast, sys

tree = ast.parse(open(sys.argv[1]).read())
classes = [n for n in tree.body if isinstance(n, ast.ClassDef)]
deco = {n.name: n for n in tree.body if isinstance(n, ast.FunctionDef)}
names, lean = [], {}


def name(a):
    if a not in names: names.append(a)
    return '.' + a


def uses(fn):
    """What a function takes from `self`, without what it stored there before."""
    found, stored = [], set()

    def add(kind, a):
        if kind == 'own' and a in stored: return
        if (kind, a) not in found: found.append((kind, a))

    def is_self(n): return isinstance(n, ast.Name) and n.id == 'self'

    def visit(n):
        if isinstance(n, ast.Assign):
            visit(n.value)
            for t in n.targets: visit(t)
            return
        if isinstance(n, ast.AugAssign):
            if isinstance(n.target, ast.Subscript) and is_self(n.target.value):
                add('own', '__getitem__')
        if isinstance(n, ast.Attribute):
            v = n.value
            if is_self(v):
                if isinstance(n.ctx, ast.Store): stored.add(n.attr)
                elif n.attr == '__class__': add('own', '__init__')
                elif n.attr != '__dict__': add('own', n.attr)
            elif isinstance(v, ast.Call) and isinstance(v.func, ast.Name) and v.func.id == 'super':
                add('sup', n.attr)
            elif isinstance(v, ast.Name) and v.id == 'new' and n.attr != '__dict__' and isinstance(n.ctx, ast.Load):
                add('own', n.attr)
        if isinstance(n, ast.Subscript) and is_self(n.value):
            if isinstance(n.ctx, ast.Load):
                add('own', '__getitem__')
                if isinstance(n.slice, ast.Constant): add('col', n.slice.value)
            else: add('own', '__setitem__')
        if isinstance(n, ast.Call) and isinstance(n.func, ast.Name) and n.func.id == 'len' and is_self(n.args[0]):
            add('own', '__len__')
        if isinstance(n, (ast.For, ast.comprehension)) and is_self(n.iter): add('own', '__iter__')
        for c in ast.iter_child_nodes(n): visit(c)

    for d in fn.decorator_list:
        if isinstance(d, ast.Call): 
            for s in ast.walk(deco[d.func.id]):
                if isinstance(s, ast.FunctionDef) and s.name == 'wrapper':
                    for b in s.body: visit(b)
    for b in fn.body: visit(b)
    return found


out = []
for c in classes:
    body = []
    for n in c.body:
        if isinstance(n, ast.Assign): body.append((n.targets[0].id, n.lineno, []))
        if isinstance(n, ast.FunctionDef): body.append((n.name, n.lineno, uses(n)))
    base = c.bases[0].id
    fields = [ast.literal_eval(n.value) for n in c.body if isinstance(n, ast.Assign) and n.targets[0].id == 'FIELDS']
    out.append((c, None if base == 'object' else base, fields[0] if fields else None, body))

tables = []
for c, base, fields, body in out:
    rows = []
    for a, line, us in body:
        rows.append('(%s, [%s])' % (name(a), ', '.join('.%s %s' % (k, name(x)) for k, x in us)))
    tables.append('  | .%s =>  -- lines %d-%d\n    [%s]' % (c.name, c.lineno, max(c.end_lineno, c.lineno), ',\n     '.join(rows)))
ftab = ['  | .%s => some [%s]' % (c.name, ', '.join(name(f) for f in fields)) for c, b, fields, body in out if fields is not None]

def wrap(words, indent, width=126):
    lines, cur = [], indent
    for w in words:
        if len(cur) + len(w) + 1 > width: lines.append(cur.rstrip()); cur = indent
        cur += w + ' '
    return '\n'.join(lines + [cur.rstrip()])

print('''import Mathlib.Logic.Relation

/-!
# The classes of `pyregpt/pyregpt.py` and what their methods take from `self`

Written by `tools/attrs.py` from the text of `pyregpt/pyregpt.py`.
-/

namespace Verif

/-- The classes of `pyregpt/pyregpt.py`. -/
inductive PyCls
%s
  deriving DecidableEq

/-- The names of methods, class attributes, attributes of objects and columns in `pyregpt/pyregpt.py`. -/
inductive Attr
%s
  deriving DecidableEq

/-- What a method takes from `self`: `self.a`, `super(...).a`, or the column `self['a']`. -/
inductive Use
  | own (a : Attr)
  | sup (a : Attr)
  | col (a : Attr)
  deriving DecidableEq

namespace PyCls

/-- The base of a class (`pyregpt/pyregpt.py:%s`). -/
def base : PyCls → Option PyCls
%s

/-- What the body of a class defines, with what each method takes from `self` (`pyregpt/pyregpt.py`, lines at the classes).  For methods
wrapped by `scale_factor` or `damping_factor` (`pyregpt/pyregpt.py:12-29`) what the wrapper takes is included.  `self[...]`, `self[...] =`,
`len(self)`, loops over `self` and `self.__class__()` take the methods behind them.  What a method has itself assigned before, and
`__dict__`, are left out; all branches of a method are counted. -/
def body : PyCls → List (Attr × List Use)
%s

/-- The columns of the class, where its body gives them (`FIELDS`). -/
def fieldsHere : PyCls → Option (List Attr)
%s
  | _ => none

end PyCls

end Verif''' % (wrap(['| ' + c.name for c, *_ in out], '  '), wrap(['| ' + n for n in names], '  '),
  ', '.join('%d' % c.lineno for c, *_ in out),
  '\n'.join('  | .%s => %s' % (c.name, 'none' if b is None else 'some .' + b) for c, b, *_ in out),
  '\n'.join(tables), '\n'.join(ftab)))
