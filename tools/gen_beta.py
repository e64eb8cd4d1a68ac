#!/usr/bin/env python3
"""Generate lean/Verif/Gen/Beta.lean from /repo/wilson/run/smeft/beta.py."""
import ast
import os
from texpr import Tr, wrap

SRC = '/repo/wilson/run/smeft/beta.py'
here = os.path.dirname(os.path.abspath(__file__))
OUT = os.path.join(here, '../lean/Verif/Gen/Beta.lean')
tree = ast.parse(open(SRC).read())
fn = [n for n in tree.body if isinstance(n, ast.FunctionDef) and n.name == 'beta'][0]

ALIAS = {}
LOCALS = []
rank = {}
BOS = ('g gp gs Lambda m2 G Gtilde W Wtilde phi phiBox phiD phiG phiB phiW phiWB phiGtilde '
       'phiBtilde phiWtilde phiWtildeB').split()
TWO = ('Gu Gd Ge uphi dphi ephi eW eB uG uW uB dG dW dB phil1 phil3 phie phiq1 phiq3 phiu phid '
       'phiud llphiphi').split()
FOUR = ('ll qq1 qq3 lq1 lq3 ee uu dd eu ed ud1 ud8 le lu ld qe qu1 qd1 qu8 qd8 ledq quqd1 quqd8 '
        'lequ1 lequ3 duql qque qqql duue').split()
for k in BOS:
    rank[k] = 0
for k in TWO:
    rank[k] = 2
for k in FOUR:
    rank[k] = 4
LRANK = dict(Eta1=0, Eta2=0, Eta3=0, Eta4=0, Eta5=0, GammaH=0, Gammaq=2, Gammau=2, Gammad=2,
             Gammal=2, Gammae=2, XiB=0, Xie=2, Xid=2, Xiu=2, HIGHSCALE=0)


def var(n):
    if isinstance(n, ast.Name):
        if n.id in ALIAS:
            k = ALIAS[n.id]
            return k, rank[k]
        if n.id in LOCALS or n.id == 'HIGHSCALE':
            return n.id, LRANK[n.id]
    if isinstance(n, ast.Subscript) and isinstance(n.value, ast.Name) and n.value.id == 'C':
        k = n.slice.value
        return k, rank[k]
    return None


tr = Tr(var)
segs = [('loc', []), ('sm', []), ('loc2', []), ('np', [])]
stage = 0
keyorder = []
for s in fn.body:
    if isinstance(s, ast.Expr) and isinstance(s.value, ast.Constant):
        continue  # docstring / comment string
    if isinstance(s, ast.Return):
        assert ast.unparse(s) == 'return Beta'
        continue
    if isinstance(s, ast.If):
        assert ast.unparse(s) == ('if not newphys:\n    BetaSM = smeftutil.C_array2dict('
                                  'np.zeros(5000))\n    BetaSM.update(Beta)\n    return BetaSM'), ast.unparse(s)
        stage = 2
        continue
    assert isinstance(s, ast.Assign) and len(s.targets) == 1, ast.dump(s)
    t = s.targets[0]
    if isinstance(t, ast.Name):
        if t.id == 'Beta':
            assert ast.unparse(s.value) == 'OrderedDict()'
            stage = 1
            continue
        if isinstance(s.value, ast.Subscript):
            ALIAS[t.id] = s.value.slice.value
            continue
        assert stage in (0, 2)
        segs[stage][1].append((t.id, tr.e(s.value), s.lineno, s.end_lineno))
        LOCALS.append(t.id)
    else:
        assert t.value.id == 'Beta'
        k = t.slice.value
        if stage == 2:
            stage = 3
        assert stage in (1, 3)
        segs[stage][1].append((k, tr.e(s.value), s.lineno, s.end_lineno))
        if k not in keyorder:
            keyorder.append(k)

assert sorted(keyorder) == sorted(rank), set(keyorder) ^ set(rank)
o = []
o.append('''import Verif.Model.Tensor

/-!
# The SMEFT beta functions, generated

GENERATED by tools/gen_beta.py from /repo/wilson/run/smeft/beta.py (`beta`); do not edit.
Every definition below transcribes one assignment of `beta` operator by operator;
`C["k"]` and the aliases `g = C["g"]`, ... are the keys of `Key`.
-/

set_option autoImplicit false

namespace Verif.Beta
open Verif.Tens
''')
o.append('''/-- the keys of the dictionary `C` (lines 37-), followed by the local variables of `beta`
and its argument `HIGHSCALE` -/
inductive Key''')
line = '  '
for k in keyorder + LOCALS + ['HIGHSCALE']:
    if len(line) > 84:
        o.append(line)
        line = '  '
    line += '| %s ' % k
o.append(line)
o.append('  deriving DecidableEq, Repr\n')


def lst(name, doc, ks):
    o.append('/-- %s -/\ndef %s : List Key :=\n%s\n' %
             (doc, name, wrap('[' + ', '.join('.' + k for k in ks) + ']')))


lst('keys', 'keys of `C`, in the order of the first assignment to `Beta[k]`', keyorder)
seen = {}
for seg, items in segs:
    names = []
    for k, e, a, b in items:
        n = '%s_%s' % (seg, k)
        if n in seen:
            seen[n] += 1
            n = '%s_%d' % (n, seen[n])
        else:
            seen[n] = 1
        names.append((k, n))
        o.append('/-- /repo/wilson/run/smeft/beta.py lines %d-%d -/\ndef %s : E Key :=\n%s\n' % (a, b, n, wrap(e)))
    doc = {'loc': 'local variables assigned before `Beta`', 'sm': 'assignments to `Beta` before the `newphys` test',
           'loc2': 'local variables assigned after the `newphys` test',
           'np': 'assignments to `Beta` after the `newphys` test'}[seg]
    o.append('/-- %s, in order -/\ndef %sProg : List (Key × E Key) :=\n%s\n' %
             (doc, seg, wrap('[' + ', '.join('(.%s, %s)' % x for x in names) + ']')))
o.append('end Verif.Beta')
open(OUT, 'w').write('\n'.join(o) + '\n')
print(len(keyorder), 'keys', tr.count, 'nodes')
