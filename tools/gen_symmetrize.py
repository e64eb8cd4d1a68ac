#!/usr/bin/env python3
"""Translate the straight-line symmetrization functions of
/repo/wilson/util/common.py into instruction lists (lean/Verif/Gen/Symmetrize.lean).

Every statement of the function body must be one of the recognised forms;
anything else raises.  `for i in range(3)` loops are unrolled."""
import ast, os
from fractions import Fraction

SRC = '/repo/wilson/util/common.py'
OUT = os.path.join(os.path.dirname(__file__), '..', 'lean', 'Verif', 'Gen', 'Symmetrize.lean')
FUN = ['symmetrize_2', 'symmetrize_4', 'symmetrize_41', 'symmetrize_5', 'symmetrize_6',
       'symmetrize_7', 'symmetrize_71', 'symmetrize_8', 'scale_8', 'unscale_8', 'symmetrize_9']

def const(e):
    if isinstance(e, ast.Constant):
        assert isinstance(e.value, int)
        return Fraction(e.value)
    if isinstance(e, ast.BinOp) and isinstance(e.op, ast.Div):
        return const(e.left) / const(e.right)
    if isinstance(e, ast.UnaryOp) and isinstance(e.op, ast.USub):
        return -const(e.operand)
    raise ValueError(ast.dump(e))

def is_const(e):
    try:
        const(e); return True
    except ValueError:
        return False

def index(sl, env):
    assert isinstance(sl, ast.Tuple)
    r = []
    for x in sl.elts:
        if isinstance(x, ast.Constant): r.append(x.value)
        elif isinstance(x, ast.Name): r.append(env[x.id])
        else: raise ValueError
    assert all(0 <= i < 3 for i in r)
    return tuple(r)

def ref(e, env):
    """a[..] / b[..] -> ('a'|'b', part, idx)"""
    assert isinstance(e, ast.Subscript)
    if isinstance(e.value, ast.Name):
        assert e.value.id in 'ab'
        return e.value.id, None, index(e.slice, env)
    assert isinstance(e.value, ast.Attribute) and e.value.value.id in 'ab'
    assert e.value.attr in ('real', 'imag')
    return e.value.value.id, e.value.attr, index(e.slice, env)

def linear(e, env):
    """-> list of (coef, arr, part, conj, idx)"""
    if isinstance(e, ast.BinOp) and isinstance(e.op, (ast.Add, ast.Sub)):
        l, r = linear(e.left, env), linear(e.right, env)
        s = 1 if isinstance(e.op, ast.Add) else -1
        return l + [(s * c, *t) for c, *t in r]
    if isinstance(e, ast.BinOp) and isinstance(e.op, ast.Mult):
        c = const(e.left)
        return [(c * d, *t) for d, *t in linear(e.right, env)]
    if isinstance(e, ast.UnaryOp) and isinstance(e.op, ast.USub):
        return [(-d, *t) for d, *t in linear(e.operand, env)]
    if isinstance(e, ast.Call):
        assert isinstance(e.func, ast.Attribute) and e.func.attr == 'conj' and not e.args
        arr, part, idx = ref(e.func.value, env)
        assert part is None
        return [(Fraction(1), arr, None, True, idx)]
    arr, part, idx = ref(e, env)
    return [(Fraction(1), arr, part, False, idx)]

def lq(q):
    s = str(q.numerator) if q.denominator == 1 else f'{q.numerator}/{q.denominator}'
    return f'({s})' if q < 0 or q.denominator != 1 else s

def li(i): return '(' + ','.join(map(str, i)) + ')'
def lb(b): return 'true' if b else 'false'

def stmt(s, env, out):
    if isinstance(s, ast.For):
        assert isinstance(s.iter, ast.Call) and s.iter.func.id == 'range' and len(s.iter.args) == 1
        for n in range(s.iter.args[0].value):
            for t in s.body:
                stmt(t, {**env, s.target.id: n}, out)
        return
    assert isinstance(s, ast.Assign) and len(s.targets) == 1, ast.dump(s)
    arr, part, dst = ref(s.targets[0], env)
    assert arr == 'a'
    if part == 'imag' and isinstance(s.value, ast.Constant) and s.value.value == 0:
        out.append(f'.imag {li(dst)} []')
        return
    rhs = linear(s.value, env)
    if part is None:
        assert all(p is None for _, _, p, _, _ in rhs)
        srcs = {a for _, a, _, _, _ in rhs}
        assert len(srcs) == 1
        ctor = {'a': '.cplx', 'b': '.cplxB'}[srcs.pop()]
        out.append(f'{ctor} {li(dst)} [' + ', '.join(f'({lq(c)}, {lb(cj)}, {li(i)})' for c, _, _, cj, i in rhs) + ']')
    else:
        assert all(a == 'a' and p == part for _, a, p, _, _ in rhs)
        out.append(f'.{part} {li(dst)} [' + ', '.join(f'({lq(c)}, {li(i)})' for c, _, _, _, i in rhs) + ']')

tree = ast.parse(open(SRC).read())
cls = next(n for n in tree.body if isinstance(n, ast.ClassDef) and n.name == 'EFTutil')
funs = {n.name: n for n in cls.body if isinstance(n, ast.FunctionDef)}
L = ['import Verif.Model.ArrayProg', '',
     '/-! Generated by `tools/gen_symmetrize.py` from `/repo/wilson/util/common.py`; do not edit. -/', '',
     'set_option autoImplicit false', '', 'namespace Verif.Gen', 'open Verif', '']
for name in FUN:
    f = funs[name]
    body = list(f.body)
    if isinstance(body[0], ast.Expr) and isinstance(body[0].value, ast.Constant):
        body = body[1:]
    a0 = ast.unparse(body[0])
    assert a0 == 'a = np.array(b, copy=True, dtype=complex)', a0
    assert ast.unparse(body[-1]) == 'return a'
    assert [a.arg for a in f.args.args] == ['b']
    out = []
    for s in body[1:-1]:
        stmt(s, {}, out)
    rank = 2 if name in ('symmetrize_2', 'symmetrize_9') else 4
    L.append(f'/-- `EFTutil.{name}`, `util/common.py:{f.lineno}-{f.end_lineno}`: the assignments between')
    L.append('`a = np.array(b, copy=True, dtype=complex)` and `return a`. -/')
    L.append(f'def {name} : List (Instr I{rank}) := [')
    L.append(',\n'.join('  ' + o for o in out) + ']')
    L.append('')
# class table
tab = next(n for n in cls.body if isinstance(n, ast.Assign) and n.targets[0].id == '_symmetry_class_defintions').value
L.append(f'/-- `EFTutil._symmetry_class_defintions`, `util/common.py:13-66`: non-redundant two-flavour index')
L.append('strings (as digits) with the "real" flag, and the class id. -/')
L.append('def symmetryClassDefinitions : List (List (List Nat × Bool) × Nat) := [')
rows = []
for k, v in zip(tab.keys, tab.values):
    key = ast.literal_eval(k)
    rows.append('  ([' + ', '.join('([' + ', '.join(s) + '], ' + lb(r) + ')' for s, r in key) + '], ' + str(v.value) + ')')
L.append(',\n'.join(rows) + ']')
L += ['', 'end Verif.Gen', '']
os.makedirs(os.path.dirname(OUT), exist_ok=True)
open(OUT, 'w').write('\n'.join(L))
