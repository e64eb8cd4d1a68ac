#!/usr/bin/env python3
"""Generate lean/Verif/Gen/Loop*.lean from /repo/wilson/match/smeft_loop.py (read as text).

Every matching condition is a sum of products.  A product consists of rational numbers, powers
of scalars, possibly the imaginary unit, possibly coefficients of bosonic operators, and at most
one array.  The generator collects, for each condition, the terms with the same array and the same
bosonic coefficient, and writes their factors as lists of numbers."""
import ast, collections, re, sys
from fractions import Fraction as F
sys.setrecursionlimit(100000)
SRC = '/repo/wilson/match/smeft_loop.py'
OUT = '/verif/lean/Verif/Gen/'
NCHUNK = 8
fn = [n for n in ast.parse(open(SRC).read()).body
      if isinstance(n, ast.FunctionDef) and n.name == '_match_all_array'][0]
stm = []
rot = []
for s in fn.body:
    if isinstance(s, ast.Assign) and isinstance(s.targets[0], ast.Subscript) and \
            ast.unparse(s.targets[0].value) == 'c':
        k = s.targets[0].slice.value
        u = ast.unparse(s.value)
        if u == "V @ c['%s']" % k:
            rot.append(k)
        else:
            stm.append((k, s.value, s.lineno))
assert len(set(k for k, _, _ in stm)) == len(stm)
SCAL = ['G', 'Gtilde', 'W', 'Wtilde', 'phi', 'phiBox', 'phiD', 'phiG', 'phiB', 'phiW', 'phiWB',
        'phiGtilde', 'phiBtilde', 'phiWtilde', 'phiWtildeB']
LET = 'Tabcprstuvz'


def addends(e):
    st = [(e, 1)]
    out = []
    while st:
        e, sg = st.pop()
        if isinstance(e, ast.BinOp) and isinstance(e.op, ast.Add):
            st += [(e.right, sg), (e.left, sg)]
        elif isinstance(e, ast.BinOp) and isinstance(e.op, ast.Sub):
            st += [(e.right, -sg), (e.left, sg)]
        elif isinstance(e, ast.UnaryOp) and isinstance(e.op, ast.USub):
            st.append((e.operand, -sg))
        else:
            out.append((sg, e))
    return out


def factors(e):
    st = [(e, 1)]
    out = []
    while st:
        e, p = st.pop()
        if isinstance(e, ast.BinOp) and isinstance(e.op, ast.Mult):
            st += [(e.right, p), (e.left, p)]
        elif isinstance(e, ast.BinOp) and isinstance(e.op, ast.Div):
            st += [(e.right, -p), (e.left, p)]
        elif isinstance(e, ast.UnaryOp) and isinstance(e.op, ast.USub):
            # a sum in parentheses stays an atom
            if isinstance(e.operand, ast.BinOp) and isinstance(e.operand.op, (ast.Add, ast.Sub)):
                out.append((e, p))
            else:
                out.append((ast.Constant(-1), 1))
                st.append((e.operand, p))
        elif isinstance(e, ast.BinOp) and isinstance(e.op, ast.Pow) and isinstance(e.right, ast.Constant):
            st.append((e.left, p * e.right.value))
        else:
            out.append((e, p))
    return out


def key(k):
    return '.' + k


def operand(u):
    m = re.fullmatch(r"C\['(\w+?)(Dag)?'\]", u)
    if m:
        return '.%s .%s' % ('dag' if m.group(2) else 'c', m.group(1))
    return {'kd': '.kd', 'kdt': '.kdt', 'V': '.V', 'Vdag': '.Vdag', 'np.diag(mu)': '.diagU',
            'np.diag(md)': '.diagD', 'np.diag(me)': '.diagE', 'mu': '.mu', 'md': '.md', 'me': '.me'}[u]


def letters(s):
    return '[%s]' % ', '.join(str(LET.index(c)) for c in s)


def tensor(ten):
    """(operands, explicit output)"""
    if len(ten) == 2:  # C["k"] * mu: numpy multiplies the columns
        a, b = ten
        return [('pr', operand(a)), ('r', operand(b))], 'pr'
    if not ten:
        return [], None
    u, = ten
    m = re.fullmatch(r"einsum\('([^']*)', (.*)\)", u)
    if m:
        spec, ex = (m.group(1).split('->') + [None])[:2]
        subs = spec.split(',')
        ops = m.group(2).split(', ')
        assert len(subs) == len(ops)
        al = ''.join(subs)
        out = ex if ex else ''.join(c for c in LET if al.count(c) == 1)
        assert out in ('prst', 'pr'), u
        return [(s, operand(o)) for s, o in zip(subs, ops)], ex
    m = re.fullmatch(r"C\['(\w+?)(Dag)?'\]\[2, 2\]", u)
    if m:
        return [('', '.%s .%s' % ('dag22' if m.group(2) else 'c22', m.group(1)))], None
    m = re.fullmatch(r"\((C\['\w+'\])\.T \* (m[ude])\)\.T", u)
    if m:  # the rows are multiplied
        return [('pr', operand(m.group(1))), ('p', operand(m.group(2)))], 'pr'
    return [('pr', operand(u))], None


def term(sg, t):
    q = F(sg)
    im = 0
    fac = collections.Counter()
    ten = []
    sc = []
    for f, p in factors(t):
        u = ast.unparse(f)
        if isinstance(f, ast.Constant) and u != '1j':
            v = F(f.value)
            assert v == f.value and v.denominator == 1
            q *= v ** p
        elif u in ('complex(0, 1)', '1j'):
            assert p == 1
            im += 1
        elif re.fullmatch(r"C\['(\w+)'\]", u) and u[3:-2] in SCAL:
            assert p == 1
            sc.append(u[3:-2])
        elif u.startswith('einsum') or 'C[' in u or u.startswith('np.') or u in ('mu', 'md', 'me'):
            assert p == 1
            ten.append(u)
        else:
            fac[u] += p
    assert im <= 1
    return q, im, {a: b for a, b in fac.items() if b}, tuple(sc), tuple(ten)


def lean(e):
    """a real scalar expression"""
    if isinstance(e, ast.BinOp):
        if isinstance(e.op, ast.Pow):
            return '(%s ^ %d)' % (lean(e.left), e.right.value)
        o = {ast.Add: '+', ast.Sub: '-', ast.Mult: '*', ast.Div: '/'}[type(e.op)]
        return '(%s %s %s)' % (lean(e.left), o, lean(e.right))
    if isinstance(e, ast.UnaryOp):
        return '(-%s)' % lean(e.operand)
    if isinstance(e, ast.Constant):
        return str(e.value)
    if isinstance(e, ast.Call):
        return '(%s %s)' % ({'sqrt': 'Real.sqrt', 'log': 'Real.log'}[e.func.id], lean(e.args[0]))
    return {'pi': 'Real.pi', 'mH': 'mH', 'mt': 'mt', 'Nc': 'Nc', 'cf': 'cf', 'aEvan': 'aEvan',
            'bEvan': 'bEvan', 'cEvan': 'cEvan', 'dEvan': 'dEvan', 'eEvan': 'eEvan'}.get(e.id, 'S.' + e.id)


atoms = {}
for a in ['g1bar', 'pi', 'vT', 'mW', 'mZ', 'mt', 'mH', 'g2bar', 'g3bar', 'sqrt(2)', 'Nc', 'cf', 'aEvan', 'bEvan',
          'cEvan', 'dEvan', 'eEvan', 'log(scale ** 2 / mt ** 2)', 'log(scale ** 2 / mZ ** 2)',
          'log(scale ** 2 / mW ** 2)', 'log(scale ** 2 / mH ** 2)']:
    atoms[a] = len(atoms)
tens = {}
coefs = {}
prog = []
divs = set()
used = set()
for k, e, ln in stm:
    if ast.unparse(e).startswith('np.zeros'):
        prog.append((k, ln, []))
        continue
    g = collections.OrderedDict()
    for sg, t in addends(e):
        q, im, fac, sc, ten = term(sg, t)
        fl = im * 2 + (1 if q < 0 else 0)
        fs = []
        for a in fac:
            n = atoms.setdefault(a, len(atoms))
            assert -31 <= fac[a] <= 31
            if fac[a] < 0:
                divs.add(n)
            fs.append(64 * n + 32 + fac[a])
        q = abs(q)
        g.setdefault((sc, ten), []).append((fl, q.numerator, q.denominator) + tuple(sorted(fs)))
    row = []
    for (sc, ten), ms in g.items():
        ops, ex = tensor(ten)
        tt = (sc, tuple(ops), ex)
        ti = tens.setdefault(tt, len(tens))
        ci = coefs.setdefault(tuple(sorted(ms)), len(coefs))
        row.append((ti, ci))
        used |= set(sc) | {m for _, o in ops for m in re.findall(r'\.\w+ \.(\w+)', o)}
    prog.append((k, ln, row))
HEAD = '/-! Generated by /verif/tools/gen_loop.py from /repo/wilson/match/smeft_loop.py. -/\n\nset_option autoImplicit false\nset_option maxRecDepth 20000\n\nnamespace Verif.Loop\n'
cl = list(coefs)
tot = sum(len(c) for c in cl)
chunks = [[]]
acc = 0
for c in cl:
    if acc > tot / NCHUNK and len(chunks) < NCHUNK:
        chunks.append([])
        acc = 0
    chunks[-1].append(c)
    acc += len(c)
for i, ch in enumerate(chunks):
    with open(OUT + 'LoopCoef%d.lean' % i, 'w') as f:
        f.write('import Verif.Model.LoopDefs\n\n' + HEAD)
        names = []
        for c in ch:
            names.append('k%d' % coefs[c])
            f.write('\ndef k%d : List (List ℕ) := [' % coefs[c])
            f.write(',\n  '.join('[' + ','.join(map(str, m)) + ']' for m in c) + ']\n')
        f.write('\n/-- factors occurring in lines 57-153: each is a sum of monomials\n`[flag, numerator, denominator, factors]`, see `Verif.Loop.monoVal`; part %d -/\ndef coefTab%d : List (List (List ℕ)) := [\n  ' % (i, i))
        f.write(',\n  '.join(', '.join(names[j:j + 15]) for j in range(0, len(names), 15)) + ']\n\nend Verif.Loop\n')
with open(OUT + 'LoopProg.lean', 'w') as f:
    for i in range(len(chunks)):
        f.write('import Verif.Gen.LoopCoef%d\n' % i)
    f.write('import Verif.Gen.Beta\nimport Verif.Gen.Rotation\nimport Mathlib.Analysis.SpecialFunctions.Log.Basic\nimport Mathlib.Analysis.Real.Sqrt\nimport Mathlib.Analysis.SpecialFunctions.Trigonometric.Basic\n\n')
    f.write(HEAD + 'open Verif.Beta Verif.Rotation\n')
    f.write('\n/-- all factors -/\ndef coefTab : List (List (List ℕ)) :=\n  %s\n' % ' ++ '.join('coefTab%d' % i for i in range(len(chunks))))
    f.write('\n/-- the real scalars of lines 7-43 and the scalar subexpressions of lines 57-153, by number -/\nnoncomputable def atomR (S : LEnv) : ℕ → ℝ\n')
    for a, n in atoms.items():
        if n == 0:
            continue
        f.write('  | %d => %s\n' % (n, lean(ast.parse(a, mode='eval').body)))
    f.write('  | _ => 1\n')
    f.write('\n/-- the scalars by which the code divides -/\ndef divAtoms : List ℕ := %s\n' % sorted(divs))
    f.write('\n/-- the arrays occurring in lines 57-153: coefficients of bosonic operators, operands of `einsum` with their\nsubscripts (the letters %s are numbered from 0), explicit output subscripts -/\ndef tens : List Tn := [\n' % LET)
    f.write(',\n'.join('  ⟨[%s], [%s], %s⟩' % (', '.join(key(x) for x in sc),
            ', '.join('(%s, %s)' % (letters(s), o) for s, o in ops),
            'some ' + letters(ex) if ex else 'none') for sc, ops, ex in tens))
    f.write(']\n')
    f.write('\n/-- the matching conditions of lines 57-153: pairs (number of an array, number of its factor) -/\ndef loopProg : List (WKey × List (ℕ × ℕ)) := [\n')
    lines = []
    for k, ln, row in prog:
        s = '  (.%s, [' % k
        ps = ['(%d, %d)' % x for x in row]
        o = '  -- line %d\n' % ln + s
        for i in range(0, len(ps), 10):
            o += ('\n    ' if i else '') + ', '.join(ps[i:i + 10]) + (',' if i + 10 < len(ps) else '')
        lines.append(o + '])')
    f.write(',\n'.join(lines) + ']\n')
    f.write('\n/-- lines 152-153: the arrays multiplied by the CKM matrix from the left -/\ndef rotated : List WKey := [%s]\n' % ', '.join('.' + k for k in rot))
    allk = set(used) | {'phiud', 'ledq', 'lequ1', 'lequ3', 'quqd1', 'quqd8'}
    f.write('\n/-- the coefficients read in lines 46-153 -/\ndef loopKeys : List Key := [%s]\n' % ', '.join('.' + k for k in sorted(allk)))
    f.write('\nend Verif.Loop\n')
print(len(tens), len(coefs), tot, len(atoms), [len(c) for c in chunks], rot)

# the arrays of the four-fermion conditions for evaluation by the kernel: only equations between indices and
# entries remain; the weight of a subscript is the power of 4 at which its value is found
WT = {'T': 256, 'p': 1, 'r': 4, 's': 16, 't': 64}


def comp(t):
    sc, ops, ex = t
    al = ''.join(s for s, _ in ops)
    out = ex if ex else ''.join(c for c in LET if al.count(c) == 1)
    if out != 'prst' or not set(al) <= set('Tprst'):
        return None
    eqs = []
    es = ['(.c .%s, false, [])' % k for k in sc]
    for s, o in ops:
        w = [WT[c] for c in s]
        if o == '.kd':
            eqs.append((w[0], w[1]))
        elif o == '.kdt':
            eqs += [(w[0], 256), (w[1], 256)]
        elif o.startswith('.c '):
            es.append('(%s, false, %s)' % (o, w))
        elif o.startswith('.dag '):
            v = [w[1], w[0]] if len(w) == 2 else [w[1], w[0], w[3], w[2]]
            es.append('(.c %s, true, %s)' % (o[5:], v))
        else:
            return None
    eqs = [x for x in eqs if x[0] != x[1]]
    return '⟨[%s], [%s]⟩' % (', '.join('(%d, %d)' % x for x in eqs), ', '.join(es))


with open(OUT + 'LoopCompiled.lean', 'w') as f:
    f.write('import Verif.Model.LoopCompile\n\n' + HEAD + 'open Verif.Beta Verif.Rotation\n\n')
    cs = {}
    for t, n in tens.items():
        c = comp(t)
        if c:
            cs[n] = c
            f.write('def u%d : Cu := %s\n' % (n, c))
    f.write('\n/-- the four-fermion matching conditions, compiled -/\ndef prog2 : List (WKey × List (Cu × ℕ)) := [\n')
    lines = []
    for k, ln, row in prog:
        if not all(x in cs for x, _ in row):
            print('not compiled', k)
            continue
        ps = ['(u%d, %d)' % x for x in row]
        o = '  (.%s, [' % k
        for i in range(0, len(ps), 10):
            o += ('\n    ' if i else '') + ', '.join(ps[i:i + 10]) + (',' if i + 10 < len(ps) else '')
        lines.append(o + '])')
    f.write(',\n'.join(lines) + ']\n')
    f.write('\ntheorem prog2_eq : (loopProg.filterMap compileForm) = prog2 := by\n  decide +kernel\n\nend Verif.Loop\n')
