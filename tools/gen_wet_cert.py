"""Generate lean/Verif/Gen/WetCert.lean: untrusted hints (positions of the images of the WET
coefficients under exchanges of generations and parity).  Everything in the generated file is
checked in Lean (Lemmas/WetCert.lean)."""
import ast
import json
import os
import re

REPO = '/repo/wilson'
OUT = os.path.join(os.path.dirname(__file__), '..', 'lean', 'Verif', 'Gen')
coeffs = json.load(open(REPO + '/data/run_wet_definitions_coeffs.json'))
for n in ast.parse(open(REPO + '/run/wet/definitions.py').read()).body:
    if isinstance(n, ast.Assign) and n.targets[0].id == 'classes':
        classes = ast.literal_eval(n.value)
sect = {s: c for c, ss in classes.items() for s in ss}
BAR = {'SuddLL', 'SduuLL', 'SduuLR', 'SduuRL', 'SdudRL', 'SduuRR', 'SuudLR', 'SuudRL', 'SdduRL'}
DIP = {'uG', 'dG', 'ugamma', 'dgamma', 'egamma'}


def species(k):
    if k in ('G', 'Gtilde'):
        return []
    if k in DIP:
        return [k[0], k[0]]
    r = k[1:].lstrip('18')[:-2]
    fs = re.findall(r'nu|e|d|u', r)
    if k in BAR:
        return fs + ['nu' if sum({'u': 2, 'd': -1}[f] for f in fs) == 0 else 'e']
    return [fs[0], fs[0], fs[1], fs[1]] if len(fs) == 2 else fs


def parse(n):
    a = n.split('_')
    return a[0], tuple(map(int, a[1])) if len(a) > 1 else ()


def name(k, ix):
    return k + ('_' + ''.join(map(str, ix)) if ix else '')


names = list(coeffs)
pos = {n: (names.index(s), i) for s, l in coeffs.items() for i, n in enumerate(l)}
SAME = {'VddLL', 'VddRR', 'VuuLL', 'VuuRR', 'VeeLL', 'VeeRR', 'VnunuLL', 'S1ddRR', 'S8ddRR',
        'S1uuRR', 'S8uuRR', 'SeeRR'}
FIERZ = {'VeeLL', 'VeeRR', 'VnunuLL'}
NOADJ = {'V1udduLR', 'V8udduLR', 'VnueduLL', 'VnueduLR'}
ANTI = {'SuudLR', 'SuudRL', 'SdduRL'}


def relatives(k, ix):
    l = [(ix, 0, 0)]
    if len(ix) == 4:
        if k in SAME:
            l += [((s, t, p, r), c, n) for (p, r, s, t), c, n in l]
        if k[0] == 'V' and k not in NOADJ:
            l += [((r, p, t, s), 1 - c, n) for (p, r, s, t), c, n in l]
        if k in FIERZ:
            l += [((p, t, s, r), c, n) for (p, r, s, t), c, n in l]
        if k in ANTI:
            l += [((r, p, s, t), c, 1 - n) for (p, r, s, t), c, n in l]
    return l


SW = {'SduuLL': 'SduuRR', 'SduuLR': 'SduuRL', 'SuudLR': 'SuudRL'}
SW.update({v: k for k, v in SW.items()})


def parity(k, ix):
    if k == 'G':
        return k, ix, 0, 0
    if k == 'Gtilde':
        return k, ix, 0, 1
    if len(ix) == 2:
        return k, ix[::-1], 1, 0
    if k in SW:
        return SW[k], ix, 0, 0
    if k in BAR or 'nuedu' in k or k == 'VnunuLL':
        return None
    p, r, s, t = ix
    if 'uddu' in k:
        return k, ix[::-1], 1, 0
    if k[0] in 'ST':
        return k, (r, p, t, s), 1, 0
    ch = k[-2:]
    m = re.match(r'^(V[18]?)(nu|u|d|e)(nu|u|d|e)$', k[:-2])
    if m.group(2) == 'nu':
        return k[:-2] + {'LL': 'LR', 'LR': 'LL'}[ch], ix, 0, 0
    if ch != 'LR':
        return k[:-2] + {'LL': 'RR', 'RR': 'LL'}[ch], ix, 0, 0
    return m.group(1) + m.group(3) + m.group(2) + 'LR', (s, t, p, r), 0, 0


def image(f):
    """per sector: (image sector + 1, big number with 12 bits per coefficient), (0, 0) if none"""
    res = []
    for s in names:
        t, cert = None, 0
        for i, n in enumerate(coeffs[s]):
            y = f(*parse(n))
            if y is None:
                assert t in (None, -1)
                t = -1
                continue
            k, ix, c0, n0 = y
            hit = [(pos[name(k, jx)], c ^ c0, m ^ n0) for jx, c, m in relatives(k, ix)
                   if name(k, jx) in pos]
            hit.sort(key=lambda h: h[1])
            (s2, j), c, m = hit[0]
            assert t in (None, s2)
            t = s2
            cert += (j * 4 + c * 2 + m) << (12 * i)
        res.append((0, 0) if t == -1 else (t + 1, cert))
    return res


def swapgen(sp, x, y):
    def f(k, ix):
        return k, tuple({x: y, y: x}.get(i, i) if g == sp else i
                        for g, i in zip(species(k), ix)), 0, 0
    return f


txt = open(os.path.join(OUT, 'Rotation.lean')).read()
WKEYS = re.findall(r'\w+', txt.split('inductive WKey')[1].split('deriving')[0])
MASS = {'u': ['u', 'c'], 'd': ['d', 's', 'b'], 'e': ['e', 'mu', 'tau']}
QS = ['u', 'd', 's', 'c', 'b', 'e', 'mu', 'tau']
out = ['''import Verif.Model.WetTables

/-!
# Hints for the checks of the WET tables, generated

GENERATED by tools/gen_wet_cert.py; do not edit.  Nothing in this file is trusted: the numbers are
verified in `Verif.Lemmas.WetCert`.  The images of the coefficients of a sector under a symmetry are
packed into one number, 12 bits each: position in the image sector, whether complex conjugated,
whether with opposite sign.
-/

set_option autoImplicit false

namespace Verif.WetTab

/-- a sector: coefficients, QED and QCD matrices, masses of the dipole coefficients (4 bits each),
codes of the coefficients (20 bits each) -/
structure Sec where
  coefs : List Coef
  rE : Rows
  rS : Rows
  ms : ℕ
  cn : ℕ

/-- the sectors in the order of `coefTable` -/
def secs : List Sec :=
  [''']
items = []
for s in names:
    ms = cn = 0
    for i, n in enumerate(coeffs[s]):
        k, ix = parse(n)
        cn += (1 + 10000 * WKEYS.index(k) + int('0' + ''.join(map(str, ix)))) << (20 * i)
        if k in DIP:
            ms += (1 + QS.index(MASS[k[0]][max(ix) - 1])) << (4 * i)
    c = sect[s]
    items.append('⟨c_%s, adm_e_%s, adm_s_%s, %d, %d⟩' % (s.replace('=', ''), c, c, ms, cn))
out.append(',\n    '.join(items) + ']\n')
out[-2:] = [out[-2] + '\n    ' + out[-1]]


def show(nm, doc, f):
    out.append('/-- %s -/\ndef %s : List (ℕ × ℕ) :=\n  [%s]\n'
               % (doc, nm, ',\n    '.join('(%d, %d)' % x for x in image(f))))


for sp, x, y in [('u', 1, 2), ('d', 1, 2), ('d', 2, 3), ('e', 1, 2), ('e', 2, 3), ('nu', 1, 2),
                 ('nu', 2, 3)]:
    show('img_%s%d%d' % (sp, x, y), 'exchange of the generations %d and %d of %s' % (x, y, sp),
         swapgen(sp, x, y))
show('img_parity', 'parity', parity)
out.append('end Verif.WetTab\n')
open(os.path.join(OUT, 'WetCert.lean'), 'w').write('\n'.join(out))
