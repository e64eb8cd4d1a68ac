#!/usr/bin/env python3
"""Generate lean/Verif/Gen/MatchTree.lean from /repo/wilson/match/smeft_tree.py."""
import ast
import os
from texpr import Tr, wrap
import gen_beta_ranks as R

SRC = '/repo/wilson/match/smeft_tree.py'
here = os.path.dirname(os.path.abspath(__file__))
OUT = os.path.join(here, '../lean/Verif/Gen/MatchTree.lean')
tree = ast.parse(open(SRC).read())
fn = [n for n in tree.body if isinstance(n, ast.FunctionDef) and n.name == '_match_all_array'][0]
for n in tree.body:
    if isinstance(n, ast.Assign):
        t = ast.unparse(n)
        assert t in ('Nc = 3', 'kd = np.eye(3)', "kdkd = einsum('pr,st', kd, kd)"), t
KDKD = '(.ein [.p,.r] .eye [.s,.t] .eye [] (.num 1))'
SCAL = ('mW', 'mZ', 'vT', 'g1bar')
used = []


def isC(n):
    return isinstance(n, ast.Subscript) and isinstance(n.value, ast.Name) and n.value.id == 'C'


def var(n):
    if isinstance(n, ast.Name):
        if n.id in SCAL:
            return '(.s .%s)' % n.id
        if n.id == 'Nc':
            return '(.num 3)'
        if n.id == 'kdkd':
            return KDKD
    if isC(n):
        k = n.slice.value
        if k.endswith('Dag'):
            k = k[:-3]
            if k not in used:
                used.append(k)
            # C[k + 'Dag']: lines 36-46
            return ('(.tr (.conj (.t (.c .%s))))' % k if R.rank[k] == 2 else
                    '(.conj (.ein [.r,.p,.t,.s] (.t (.c .%s)) [] (.num 1) [] (.num 1)))' % k)
        if k not in used:
            used.append(k)
        return '(.%s (.c .%s))' % ('s' if R.rank[k] == 0 else 't', k)
    if isinstance(n, ast.Call) and ast.unparse(n) == 'sqrt(2)':
        return '(.s .sqrt2)'
    if isinstance(n, ast.Call) and ast.unparse(n) == 'np.zeros((3, 3, 3, 3))':
        return '(.num 0)'
    return None


tr = Tr(var)
prog = []
seen = False
pre = []
for s in fn.body:
    if isinstance(s, ast.Return):
        assert ast.unparse(s) == 'return c'
        continue
    if ast.unparse(s) == 'c = {}':
        seen = True
        continue
    if not seen:
        pre.append(ast.unparse(s))
        continue
    assert isinstance(s, ast.Assign) and s.targets[0].value.id == 'c'
    k = s.targets[0].slice.value
    prog.append((k, tr.e(s.value), s.lineno))
assert pre == ['C = _C.copy()', "mW = p['m_W']", "GF = p['GF']",
    "GFx = GF - sqrt(2) / 4 * (-C['ll'][1, 0, 0, 1] - C['ll'][0, 1, 1, 0] + 2 * C['phil3'][1, 1] + 2 * C['phil3'][0, 0])",
    'vT = sqrt(1 / sqrt(2) / abs(GFx))', "eps = C['phiWB'] * vT ** 2", "g2b = 2 * p['m_W'] / vT",
    "alpha_e = p['alpha_e']", 'eb = sqrt(4 * pi * alpha_e)',
    'g1b = eb * g2b / sqrt(g2b ** 2 - eb ** 2) + eb ** 2 * g2b / (g2b ** 2 - eb ** 2) * eps',
    "mZ = sqrt(vT ** 2 / 4 * (1 + vT ** 2 / 2 * C['phiD']) * (g2b ** 2 + g1b ** 2) + vT ** 2 / 2 * eps * g1b * g2b)",
    'g1bar = g1b',
    "for _f in 'ude':\n    for _b in ['B', 'G', 'phi', 'W']:\n        if _f + _b in C:\n            C[_f + _b + 'Dag'] = C[_f + _b].conjugate().T",
    "C['phiudDag'] = C['phiud'].conjugate().T",
    "C['ledqDag'] = einsum('rpts', C['ledq']).conjugate()",
    "C['lequ1Dag'] = einsum('rpts', C['lequ1']).conjugate()",
    "C['lequ3Dag'] = einsum('rpts', C['lequ3']).conjugate()",
    "C['quqd1Dag'] = einsum('rpts', C['quqd1']).conjugate()",
    "C['quqd8Dag'] = einsum('rpts', C['quqd8']).conjugate()"], pre
assert len({k for k, _, _ in prog}) == len(prog)

out = ['''import Verif.Gen.Rotation

/-!
# The tree-level matching conditions, generated

GENERATED by tools/gen_match.py from /repo/wilson/match/smeft_tree.py (`_match_all_array`);
do not edit.  One expression per assignment `c[k] = ...`, with the scalars `mW`, `mZ`, `vT`,
`g1bar`, `sqrt(2)` (lines 17-33) and the SMEFT arrays `C[k]` as variables; `Nc` is the
number 3, `kdkd` is `einsum("pr,st", kd, kd)`, `C[k + 'Dag']` is replaced by its definition
(lines 36-46), `np.zeros((3,3,3,3))` is the number 0.
-/

set_option autoImplicit false

namespace Verif.Match
open Verif.Tens Verif.Beta Verif.Rotation

/-- variables of the matching conditions -/
inductive MV
  | c (k : Key)
  | mW | mZ | vT | g1bar | sqrt2
  deriving DecidableEq, Repr
''']
for k, e, ln in prog:
    out.append('/-- smeft_tree.py line %d, `c[\'%s\']` -/\ndef m_%s : E MV :=\n%s\n' % (ln, k, k, wrap(e)))
out.append('/-- the matching conditions in order, smeft_tree.py lines %d-%d -/' % (prog[0][2], prog[-1][2]))
out.append('def treeProg : List (WKey × E MV) :=\n  [' + ',\n   '.join('(.%s, m_%s)' % (k, k) for k, _, _ in prog) + ']\n')
out.append('/-- the keys of `C` that are read (a missing one raises `KeyError`) -/')
out.append('def treeKeys : List Key :=\n' + wrap('[' + ', '.join('.' + k for k in used) + ']') + '\n')
out.append('end Verif.Match\n')
open(OUT, 'w').write('\n'.join(out))
print(len(prog), tr.count, used)
