#!/usr/bin/env python3
"""Generate lean/Verif/Gen/Rotation.lean from the three flavour-rotation functions:
util/smeft_warsaw.py:flavor_rotation, run/smeft/classes.py:SMEFT._flavor_rotation and
util/wet_jms.py:rotate_down; also the JMS coefficient names of wet_jms.C_symm_keys."""
import ast
import os

here = os.path.dirname(os.path.abspath(__file__))
OUT = os.path.join(here, '../lean/Verif/Gen/Rotation.lean')
R = '/repo/wilson/'

# smeftutil.WC_keys_0f (computed from the Warsaw basis file)
WC0F = ('G Gtilde W Wtilde phi phiBox phiD phiG phiB phiW phiWB phiGtilde phiBtilde phiWtilde '
        'phiWtildeB').split()


def func(path, name):
    t = ast.parse(open(R + path).read())
    for n in ast.walk(t):
        if isinstance(n, ast.FunctionDef) and n.name == name:
            return n, t
    raise KeyError(name)


def mat(n, fl):
    if isinstance(n, ast.Name):
        return '(.U %s)' % fl[n.id]
    if isinstance(n, ast.Attribute) and n.attr == 'T':
        return '(.tr %s)' % mat(n.value, fl)
    if isinstance(n, ast.Call) and isinstance(n.func, ast.Attribute) and n.func.attr == 'conj' \
            and not n.args:
        return '(.conj %s)' % mat(n.func.value, fl)
    raise Exception(ast.dump(n))


def is_cin(n, key):
    return isinstance(n, ast.Subscript) and ast.unparse(n.value) == 'C_in' and (
        (isinstance(n.slice, ast.Constant) and n.slice.value == key)
        or (isinstance(n.slice, ast.Name) and n.slice.id == 'k'))


def rhs(n, key, fl):
    if is_cin(n, key):
        return '.copy'
    if isinstance(n, ast.BinOp) and isinstance(n.op, ast.MatMult):
        # (X @ C) @ Y
        assert isinstance(n.left, ast.BinOp) and isinstance(n.left.op, ast.MatMult)
        assert is_cin(n.left.right, key), (key, ast.unparse(n))
        return '(.sand %s %s)' % (mat(n.left.left, fl), mat(n.right, fl))
    if isinstance(n, ast.Call) and ast.unparse(n.func) == 'np.einsum':
        subs, out = n.args[0].value.split('->')
        subs = subs.split(',')
        ops = n.args[1:]
        assert len(ops) == len(subs) and is_cin(ops[-1], key), (key, ast.unparse(n))

        def lab(s):
            return '[' + ','.join('.' + c for c in s) + ']'
        return '(.ein [%s] %s %s)' % (
            ', '.join('(%s, %s)' % (lab(s), mat(o, fl)) for s, o in zip(subs[:-1], ops[:-1])),
            lab(subs[-1]), lab(out))
    raise Exception(ast.dump(n))


def stmts(body, fl, keys=None, guard=False):
    """yield (key, guarded, rhs, line)"""
    for s in body:
        if isinstance(s, ast.For):
            it = ast.unparse(s.iter)
            assert s.target.id == 'k'
            ks = WC0F if it.endswith('smeftutil.WC_keys_0f') else [e.value for e in s.iter.elts]
            for k in ks:
                yield from stmts(s.body, fl, k, guard)
        elif isinstance(s, ast.If):
            k = keys
            t = s.test
            if ast.unparse(t) == 'sm_parameters':
                yield ('SM', None, None, s.lineno)
                yield from stmts(s.body, fl, keys, guard)
                yield ('ENDSM', None, None, s.lineno)
                continue
            assert isinstance(t, ast.Compare) and isinstance(t.ops[0], ast.In) and \
                ast.unparse(t.comparators[0]) == 'C_in' and not s.orelse
            if isinstance(t.left, ast.Constant):
                k = t.left.value
            assert len(s.body) == 1
            for x in stmts(s.body, fl, k, True):
                assert x[0] == k
                yield x
        elif isinstance(s, ast.Assign) and isinstance(s.targets[0], ast.Subscript):
            t = s.targets[0]
            assert ast.unparse(t.value) == 'C'
            k = keys if isinstance(t.slice, ast.Name) else t.slice.value
            yield (k, guard, rhs(s.value, k, fl), s.lineno)
        elif isinstance(s, ast.Return):
            assert ast.unparse(s) == 'return C'
        elif isinstance(s, ast.Expr) and isinstance(s.value, ast.Constant):
            pass
        elif isinstance(s, ast.Assign):
            assert ast.unparse(s) in ('C = {}', 'C = C_in.copy()', 'UdL = V',
                                      "V = ckmutil.ckm.ckm_tree(p['Vus'], p['Vub'], p['Vcb'], p['gamma'])"), ast.unparse(s)
        else:
            raise Exception(ast.dump(s))


FL = {'U' + f: '.' + f for f in 'qudle'}
f1, _ = func('util/smeft_warsaw.py', 'flavor_rotation')
f2, _ = func('run/smeft/classes.py', '_flavor_rotation')
f3, t3 = func('util/wet_jms.py', 'rotate_down')

symm = {}
for n in t3.body:
    if isinstance(n, ast.Assign) and ast.unparse(n.targets[0]).startswith('C_symm_keys['):
        symm[n.targets[0].slice.value] = [e.value for e in n.value.elts]
wkeys = [k for c in symm for k in symm[c]]
assert len(set(wkeys)) == len(wkeys)


def wrap(items, w=96, ind='    '):
    lines, cur = [], ''
    for i in items:
        if len(cur) + len(i) + 2 > w:
            lines.append(cur)
            cur = ''
        cur += (' ' if cur else '') + i
    lines.append(cur)
    return ('\n' + ind).join(lines)


def table(rows):
    return '[' + ',\n    '.join('⟨.%s, %s, %s⟩' % (k, 'true' if g else 'false', r)
                               for k, g, r, _ in rows) + ']'


o = '''import Verif.Gen.Beta
import Verif.Model.Rotation

/-!
# The flavour-rotation functions, generated

GENERATED by tools/gen_rotation.py from /repo/wilson/util/smeft_warsaw.py
(`flavor_rotation`), /repo/wilson/run/smeft/classes.py (`SMEFT._flavor_rotation`) and
/repo/wilson/util/wet_jms.py (`rotate_down`, `C_symm_keys`); do not edit.  One entry per
assignment `C[k] = ...`: the key, whether it is guarded by `if k in C_in`, the right-hand side.
-/

set_option autoImplicit false

namespace Verif.Rotation
open Verif.Tens Verif.Beta

/-- arguments of `flavor_rotation`: `Uq`, `Uu`, `Ud`, `Ul`, `Ue` -/
inductive Arg
  | q | u | d | l | e
  deriving DecidableEq, Repr

/-- the only rotation matrix of `rotate_down`, `UdL` -/
inductive Arg1
  | UdL
  deriving DecidableEq, Repr

'''
rows = list(stmts(f1.body, FL))
o += '/-- /repo/wilson/util/smeft_warsaw.py lines %d-%d -/\ndef flavorRotationProg : List (Stmt Key Arg) :=\n   %s\n\n' % (
    f1.lineno, f1.end_lineno, table(rows))
rows = list(stmts(f2.body, FL))
i0 = [i for i, r in enumerate(rows) if r[0] == 'SM'][0]
i1 = [i for i, r in enumerate(rows) if r[0] == 'ENDSM'][0]
assert i0 == 0
o += '/-- /repo/wilson/run/smeft/classes.py lines %d-152, executed `if sm_parameters` -/\ndef smeftRotationSM : List (Stmt Key Arg) :=\n   %s\n\n' % (
    rows[0][3], table(rows[1:i1]))
o += '/-- /repo/wilson/run/smeft/classes.py lines 153-%d -/\ndef smeftRotationWC : List (Stmt Key Arg) :=\n   %s\n\n' % (
    f2.end_lineno, table(rows[i1+1:]))
o += '/-- the names in `wet_jms.C_symm_keys` (/repo/wilson/util/wet_jms.py lines 12-38) -/\ninductive WKey\n  %s\n  deriving DecidableEq, Repr\n\n' % wrap(['| ' + k for k in wkeys], ind='  ')
o += '/-- all of them -/\ndef WKey.all : List WKey :=\n   [%s]\n\n' % wrap(['.' + k + (',' if k != wkeys[-1] else '') for k in wkeys])
o += '/-- `C_symm_keys` (/repo/wilson/util/wet_jms.py lines 12-38): class number, names -/\ndef symmKeysWet : List (ℕ × List WKey) :=\n   [%s]\n\n' % ',\n    '.join(
    '(%d, [%s])' % (c, wrap(['.' + k + (',' if k != symm[c][-1] else '') for k in symm[c]], ind='      ')) for c in symm)
rows = list(stmts(f3.body, {'UdL': '.UdL'}))
o += '/-- /repo/wilson/util/wet_jms.py lines %d-%d -/\ndef rotateDownProg : List (Stmt WKey Arg1) :=\n   %s\n\n' % (
    f3.lineno, f3.end_lineno, table(rows))
o += 'end Verif.Rotation\n'
open(OUT, 'w').write(o)
print(len(o))
