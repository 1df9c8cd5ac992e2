'''Transcribes the declarations in /repo/src/hwp5/binmodel (as text, with the module `ast`;
nothing is imported or run) to lean/Verif/Spec/PySource.lean.'''
import ast, glob, os, sys

ROOT = '/repo/src/hwp5/'
FILES = ([ROOT + 'binmodel/controlchar.py', ROOT + 'binmodel/_shared.py', ROOT + 'binmodel/controls/_shared.py'] +
         sorted(glob.glob(ROOT + 'binmodel/tagid*.py')) +
         [f for f in sorted(glob.glob(ROOT + 'binmodel/controls/*.py'))
          if os.path.basename(f) not in ('_shared.py', '__init__.py')] + [ROOT + 'xmlmodel.py'])


def s(x):
    return '"' + x.replace('\\', '\\\\').replace('"', '\\"') + '"'


def ex(e):
    if isinstance(e, ast.Name):
        return '.name ' + s(e.id)
    if isinstance(e, ast.Attribute):
        return '.attr (%s) %s' % (ex(e.value), s(e.attr))
    if isinstance(e, ast.Constant) and isinstance(e.value, str):
        return '.str ' + s(e.value)
    if isinstance(e, ast.Constant) and isinstance(e.value, int):
        return '.num %d' % e.value
    if isinstance(e, ast.Tuple):
        return '.tuple [%s]' % ', '.join(ex(x) for x in e.elts)
    if isinstance(e, ast.Call):
        return '.call (%s) [%s] [%s]' % (
            ex(e.func), ', '.join(ex(x) for x in e.args),
            ', '.join('(%s, %s)' % (s(k.arg or '**'), ex(k.value)) for k in e.keywords))
    if isinstance(e, ast.Dict):
        return '.dict [%s]' % ', '.join('(%s, %s)' % (ex(k), ex(v)) for k, v in zip(e.keys, e.values))
    if isinstance(e, ast.Subscript):
        return '.index (%s) (%s)' % (ex(e.value), ex(e.slice))
    if isinstance(e, ast.UnaryOp) and isinstance(e.op, ast.Not):
        return '.not (%s)' % ex(e.operand)
    if isinstance(e, ast.BoolOp) and isinstance(e.op, ast.And) and len(e.values) == 2:
        return '.and (%s) (%s)' % (ex(e.values[0]), ex(e.values[1]))
    if isinstance(e, ast.Compare) and len(e.ops) == 1 and isinstance(e.ops[0], ast.Eq):
        return '.eq (%s) (%s)' % (ex(e.left), ex(e.comparators[0]))
    if isinstance(e, ast.BinOp) and isinstance(e.op, (ast.Sub, ast.Add)):
        return '.%s (%s) (%s)' % ('sub' if isinstance(e.op, ast.Sub) else 'add', ex(e.left), ex(e.right))
    raise Exception(ast.dump(e))


def doc(b):
    return isinstance(b, ast.Expr) and isinstance(b.value, ast.Constant)


class Skip(Exception):
    pass


def func(f):
    '''A function whose body is one `return`: its expression.'''
    body = [b for b in f.body if not doc(b)]
    if len(body) == 1 and isinstance(body[0], ast.Return):
        return body[0].value
    raise Skip(f.name)


defs, classes, odd, wheres = [], [], [], {}
for path in FILES:
    tree = ast.parse(open(path).read())
    rel = path[len(ROOT):]
    only = {'binmodel/controlchar.py': 'CHID', 'xmlmodel.py': 'HwpDoc'}.get(rel)
    if only:
        nodes = [n for n in tree.body if isinstance(n, ast.ClassDef) and n.name == only]
    else:
        nodes = tree.body
    for n in nodes:
        if isinstance(n, ast.FunctionDef):
            try:
                defs.append((n.name, ex(func(n)), rel, n.lineno))
            except Skip:
                odd.append((n.name, rel, n.lineno))
        elif isinstance(n, ast.Assign) and isinstance(n.targets[0], ast.Name):
            try:
                defs.append((n.targets[0].id, ex(n.value), rel, n.lineno))
            except Exception:
                odd.append((n.targets[0].id, rel, n.lineno))
        elif isinstance(n, ast.ClassDef):
            attrs, rows = [], None
            for b in n.body:
                if isinstance(b, ast.Assign) and isinstance(b.targets[0], ast.Name):
                    name = b.targets[0].id
                    if name == 'attributes':
                        continue
                    try:
                        attrs.append((name, ex(b.value)))
                    except Exception:
                        odd.append((n.name + '.' + name, rel, b.lineno))
                elif isinstance(b, ast.FunctionDef) and b.name == 'attributes':
                    rows, local = [], {}
                    for y in b.body:
                        if doc(y):
                            continue
                        if isinstance(y, ast.FunctionDef):
                            try:
                                local[y.name] = ex(func(y))
                            except Skip:
                                odd.append((n.name + '.attributes.' + y.name, rel, y.lineno))
                            continue
                        if isinstance(y, ast.If):
                            odd.append((n.name + '.attributes if', rel, y.lineno))
                            continue
                        if isinstance(y, ast.Return) or isinstance(y, ast.Pass):
                            odd.append((n.name + '.attributes ' + ast.dump(y), rel, y.lineno))
                            continue
                        if not (isinstance(y, ast.Expr) and isinstance(y.value, ast.Yield)):
                            odd.append((n.name + '.attributes ' + ast.dump(y)[:60], rel, y.lineno))
                            continue
                        v = y.value.value
                        if isinstance(v, ast.Tuple):
                            assert len(v.elts) == 2
                            rows.append((v.elts[1].value, ex(v.elts[0]), [], None, y.lineno))
                        else:
                            assert isinstance(v, ast.Call) and v.func.id == 'dict' and not v.args
                            kw = {k.arg: k.value for k in v.keywords}
                            assert set(kw) <= {'type', 'name', 'version', 'condition'}
                            c = kw.get('condition')
                            if c is not None:
                                c = local.get(c.id, '.name ' + s(c.id)) if isinstance(c, ast.Name) else ex(c)
                            rows.append((kw['name'].value, ex(kw['type']),
                                         [x.value for x in kw['version'].elts] if 'version' in kw else [], c, y.lineno))
            bases = []
            for b in n.bases:
                if isinstance(b, ast.Call):  # with_metaclass(metaclass, base)
                    assert b.func.id == 'with_metaclass' and len(b.args) == 2
                    b = b.args[1]
                bases.append(b.id)
            classes.append((n.name, bases, attrs, rows, rel, n.lineno))

tags = []
for n in ast.parse(open(ROOT + 'tagids.py').read()).body:
    if isinstance(n, ast.Assign) and isinstance(n.targets[0], ast.Name):
        try:
            tags.append((n.targets[0].id, ex(n.value)))
        except Exception:
            odd.append((n.targets[0].id, 'tagids.py', n.lineno))

# the control characters: codes, names, kinds, and the sizes of the kinds
cc = next(n for n in ast.parse(open(ROOT + 'binmodel/controlchar.py').read()).body
          if isinstance(n, ast.ClassDef) and n.name == 'ControlChar')
ctrlchars = next(ex(b.value) for b in cc.body if isinstance(b, ast.Assign) and b.targets[0].id == 'chars')
ctrlsizes = [(k.name, ex(k.body[0].value)) for k in cc.body if isinstance(k, ast.ClassDef)]
# the line segment made if there is none
dummy = next(ex(n.value) for n in ast.walk(ast.parse(open(ROOT + 'xmlmodel.py').read()))
             if isinstance(n, ast.Assign) and isinstance(n.targets[0], ast.Name) and n.targets[0].id == 'lineseg' and
             isinstance(n.value, ast.Call))

if len(sys.argv) > 1:
    for o in odd:
        print(o)
    sys.exit()

out = ['''/-
The declarations of the record types (and of `HwpDoc`) as they are written in the Python source: expressions as
they are parsed, nothing evaluated.  Made by tools/pysource.py from the text of
/repo/src/hwp5/binmodel and /repo/src/hwp5/tagids.py.
-/
namespace Hwp.Spec

/-- Python expressions. -/
inductive PyEx where
  | name (s : String)
  | attr (e : PyEx) (a : String)
  | str (s : String)
  | num (n : Nat)
  | tuple (es : List PyEx)
  | call (f : PyEx) (args : List PyEx) (kwargs : List (String × PyEx))
  | dict (items : List (PyEx × PyEx))
  | index (e i : PyEx)
  | not (e : PyEx)
  | and (a b : PyEx)
  | eq (a b : PyEx)
  | sub (a b : PyEx)
  | add (a b : PyEx)

/-- A member: `yield type, name` or `yield dict(type=..., name=..., version=...,
condition=...)`.  The condition is the expression a local function of that name returns, or the
name of another function. -/
structure PyMember where
  name : String
  type : PyEx
  version : List Nat
  condition : Option PyEx

/-- A class: base classes, assignments in its body, members (if it has `attributes`). -/
structure PyClass where
  name : String
  bases : List String
  attrs : List (String × PyEx)
  members : Option (List PyMember)

namespace PySource
''']
for name, bases, attrs, rows, rel, line in classes:
    out.append('/-- %s:%d -/\ndef c%s : PyClass where\n  name := %s\n  bases := [%s]' % (
        rel, line, name, s(name), ', '.join(map(s, bases))))
    out.append('  attrs := [%s]' % ',\n    '.join('(%s, %s)' % (s(a), v) for a, v in attrs))
    if rows is None:
        out.append('  members := none\n')
    else:
        out.append('  members := some [%s]\n' % ',\n    '.join(
            '⟨%s, %s, [%s], %s⟩' % (s(n), t, ', '.join(map(str, v)), 'none' if c is None else 'some (%s)' % c)
            for n, t, v, c, _ in rows))
out.append('end PySource\n')
out.append('open PySource in\n/-- All classes. -/\ndef pyClasses : List PyClass :=\n  [%s]\n' % ',\n   '.join('c' + c[0] for c in classes))
out.append('/-- Module level definitions and functions that only return an expression. -/\ndef pyDefs : List (String × PyEx) :=\n  [%s]\n' % ',\n   '.join('(%s, %s)' % (s(a), v) for a, v, _, _ in defs))
out.append('/-- tagids.py -/\ndef pyTags : List (String × PyEx) :=\n  [%s]\n' % ',\n   '.join('(%s, %s)' % (s(a), v) for a, v in tags))
out.append('/-- controlchar.py:131-157 `ControlChar.chars`. -/\ndef pyControlChars : PyEx :=\n  %s\n' % ctrlchars)
out.append('/-- controlchar.py:123-130: the sizes of the kinds. -/\ndef pyControlSizes : List (String × PyEx) :=\n  [%s]\n' % ', '.join('(%s, %s)' % (s(a), v) for a, v in ctrlsizes))
out.append('/-- xmlmodel.py:213-214: the line segment that is made if there is none. -/\ndef pyDummyLineSeg : PyEx :=\n  %s\n' % dummy)
rdf = [n.args[0].value.decode('ascii') for n in ast.walk(ast.parse(open(ROOT + 'hwp5odt.py').read()))
       if isinstance(n, ast.Call) and n.args and isinstance(n.args[0], ast.Constant) and isinstance(n.args[0].value, bytes)]
assert len(rdf) == 1
out.append('/-- hwp5odt.py:311-323: what `manifest_rdf` writes, in lines. -/\ndef pyManifestRdf : List String :=\n  [%s]\n' % ',\n   '.join(s(l).replace('\n', '\\n') for l in rdf[0].splitlines(True)))
out.append('end Hwp.Spec')
sys.stdout.write('\n'.join(out) + '\n')
