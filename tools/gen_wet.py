"""Generate lean/Verif/Gen/WetTables.lean and lean/Verif/Gen/Adm.lean from
/repo/wilson/run/wet/definitions.py, /repo/wilson/data/run_wet_definitions_coeffs.json and
/repo/wilson/run/wet/adm.py.  Reads the sources as text (ast); runs nothing from them."""
import ast
import json
import os
from fractions import Fraction as F

REPO = '/repo/wilson'
OUT = os.path.join(os.path.dirname(__file__), '..', 'lean', 'Verif', 'Gen')

coeffs = json.load(open(REPO + '/data/run_wet_definitions_coeffs.json'))
tree = ast.parse(open(REPO + '/run/wet/definitions.py').read())
for n in tree.body:
    if isinstance(n, ast.Assign) and n.targets[0].id == 'classes':
        classes = ast.literal_eval(n.value)


def wrap(items, indent='    ', width=98):
    lines, cur = [], indent
    for k, it in enumerate(items):
        s = it + (', ' if k < len(items) - 1 else '')
        if len(cur) + len(s) > width:
            lines.append(cur.rstrip())
            cur = indent
        cur += s
    lines.append(cur.rstrip())
    return '\n'.join(lines)


def ident(s):
    return s.replace('=', '')


out = ['''import Verif.Gen.Rotation

/-!
# The sector tables of the WET running, generated

GENERATED by tools/gen_wet.py from /repo/wilson/run/wet/definitions.py (`classes`, lines 8-40)
and /repo/wilson/data/run_wet_definitions_coeffs.json (`coeffs`, definitions.py line 47); do not
edit.  A coefficient name `S1ddRR_2323` is written `(.S1ddRR, 2323)`, a name without indices
`(.G, 0)`; `Verif.WetTab.nameOf` renders it.
-/

set_option autoImplicit false

namespace Verif.WetTab
open Verif.Rotation

/-- definitions.py lines 8-40: class name and its sectors -/
def classes : List (String × List String) :=
  [''' + ',\n   '.join('("%s", [%s])' % (c, ', '.join('"%s"' % s for s in ss))
                       for c, ss in classes.items()) + ''']
''']
for s, l in coeffs.items():
    items = []
    for nme in l:
        a = nme.split('_')
        assert len(a) in (1, 2)
        items.append('(.%s, %s)' % (a[0], a[1] if len(a) == 2 else '0'))
    out.append('/-- coefficients of sector `%s` -/\ndef c_%s : List (WKey × ℕ) :=\n  [\n%s]\n'
               % (s, ident(s), wrap(items)))
out.append('/-- `coeffs` (definitions.py line 47): sector name and its coefficients -/\n'
           'def coefTable : List (String × List (WKey × ℕ)) :=\n  [\n' +
           wrap(['("%s", c_%s)' % (s, ident(s)) for s in coeffs]) + ']\n\nend Verif.WetTab\n')
open(os.path.join(OUT, 'WetTables.lean'), 'w').write('\n'.join(out))

# ---------------------------------------------------------------- anomalous dimensions


def terms(x):
    """expression -> {monomial: rational}; a monomial is (factor, divisor)"""
    if isinstance(x, ast.Constant):
        if isinstance(x.value, complex):
            assert x.value.real == 0
            return {('i', None): F(repr(x.value.imag))}
        return {(None, None): F(repr(x.value))}
    if isinstance(x, ast.Name):
        return {(x.id, None): F(1)}
    if isinstance(x, ast.UnaryOp):
        assert isinstance(x.op, ast.USub)
        return {k: -v for k, v in terms(x.operand).items()}
    assert isinstance(x, ast.BinOp)
    a, b = terms(x.left), terms(x.right)
    if isinstance(x.op, ast.Add):
        assert not set(a) & set(b)
        return {**a, **b}
    assert len(a) == 1 and len(b) == 1
    ((p, q), v), = a.items()
    ((r, s), w), = b.items()
    if isinstance(x.op, ast.Mult):
        assert q is None and s is None and (p is None or r is None)
        return {(p if r is None else r, None): v * w}
    assert isinstance(x.op, ast.Div) and s is None and q is None
    return {(p, r): v / w}


MASS = {'mu': 'u', 'md': 'd', 'ms': 's', 'mc': 'c', 'mb': 'b', 'me': 'e', 'mmu': 'mu', 'mtau': 'tau'}


def ent(x):
    t = {k: v for k, v in terms(x).items() if v != 0}
    if not t:
        return None
    if set(t) == {(None, None)}:
        v = t[None, None]
        return '.%s %d %d' % ('p' if v > 0 else 'n', abs(v.numerator), v.denominator)
    if set(t) <= {(None, None), ('b0g', None)}:
        v, w = t['b0g', None], t.get((None, None), F(0))
        assert v < 0 and w >= 0
        return '.b %d %d %d %d' % (-v.numerator, v.denominator, w.numerator, w.denominator)
    (k, v), = t.items()
    if k == ('i', None):
        assert v > 0
        return '.i %d %d' % (v.numerator, v.denominator)
    return '.%s %d %d .%s .%s' % ('mp' if v > 0 else 'mn', abs(v.numerator), v.denominator,
                                 MASS[k[0]], MASS[k[1]])


src = open(REPO + '/run/wet/adm.py').read()
tree = ast.parse(src)
out = ['''import Verif.Model.WetRun

/-!
# The anomalous dimension matrices of the WET running, generated

GENERATED by tools/gen_wet.py from /repo/wilson/run/wet/adm.py (lines 16-2644); do not edit.
Each matrix is the list of its rows; a row lists its non-zero entries as pairs (column, entry).
Fractions are reduced; floating point literals are the rational numbers they denote.
-/

set_option autoImplicit false

namespace Verif.WetTab

/-- the mass arguments of the functions of adm.py -/
inductive Q | u | d | s | c | b | e | mu | tau
  deriving DecidableEq, Repr

/-- the shapes of the matrix entries occurring in adm.py -/
inductive Ent
  /-- `n/d` -/
  | p (n d : ℕ)
  /-- `-n/d` -/
  | n (n d : ℕ)
  /-- `-n/d*b0g + k/l` -/
  | b (n d k l : ℕ)
  /-- `n/d*m_x/m_y` -/
  | mp (n d : ℕ) (x y : Q)
  /-- `-n/d*m_x/m_y` -/
  | mn (n d : ℕ) (x y : Q)
  /-- `n/d*1j` -/
  | i (n d : ℕ)
  deriving DecidableEq, Repr

/-- a matrix by its rows -/
abbrev Rows := List (List (ℕ × Ent))
''']
tabs = {'e': [], 's': []}
for fn in tree.body:
    if not (isinstance(fn, ast.FunctionDef) and fn.name.startswith('adm_')):
        continue
    assert [a.arg for a in fn.args.args] == ['f'] + list(MASS), fn.name
    ret = fn.body[-1]
    rest = [s for s in fn.body[:-1] if not (isinstance(s, ast.Expr))]
    assert all(ast.unparse(s) == 'b0g = _b0g(f)' for s in rest), fn.name
    assert isinstance(ret, ast.Return) and ast.unparse(ret.value.func) == 'np.array' \
        and len(ret.value.args) == 1 and not ret.value.keywords
    rows = ret.value.args[0].elts
    t, cls = fn.name[4], fn.name[6:]
    lines = []
    for r in rows:
        assert len(r.elts) == len(rows)
        es = [(j, ent(e)) for j, e in enumerate(r.elts)]
        items = ['(%d, %s)' % (j, e) for j, e in es if e]
        lines.append('    [' + wrap(items, '     ').strip() + ']')
    out.append('/-- adm.py line %d `%s` -/\ndef %s_%s : Rows :=\n  [\n%s]\n'
               % (fn.lineno, fn.name, fn.name[:5], cls, ',\n'.join(lines)))
    tabs[t].append((cls, '%s_%s' % (fn.name[:5], cls)))
for t, nm in (('e', 'QED'), ('s', 'QCD')):
    out.append('/-- the %s matrices by class name (`getattr(adm, \'adm_%s_\' + classname)`) -/\n'
               'def adm%sTable : List (String × Rows) :=\n  [\n' % (nm, t, t.upper()) +
               wrap(['("%s", %s)' % x for x in tabs[t]]) + ']\n')
out.append('end Verif.WetTab\n')
open(os.path.join(OUT, 'Adm.lean'), 'w').write('\n'.join(out))
