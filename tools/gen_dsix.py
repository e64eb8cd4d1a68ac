#!/usr/bin/env python3
"""Transcribe the tables of wilson/wcxf/converters/dsixtools_definitions.py and `WC_dict_0f` of
dsixtools.py into lean/Verif/Gen/Dsix.lean (reads the source text only)."""
import ast, os
base = '/repo/wilson/wcxf/converters/'
t = ast.parse(open(base + 'dsixtools_definitions.py').read())
D = {}
for n in t.body:
    if isinstance(n, ast.Assign):
        D[n.targets[0].id] = (ast.literal_eval(n.value), n.lineno, n.end_lineno)
t2 = ast.parse(open(base + 'dsixtools.py').read())
for n in t2.body:
    if isinstance(n, ast.Assign) and n.targets[0].id == 'WC_dict_0f':
        D['WC_dict_0f'] = (ast.literal_eval(n.value.args[0]), n.lineno, n.end_lineno)

out = ['import Verif.Model.ArrayProg', '',
       '/-! Generated by `tools/gen_dsix.py` from `/repo/wilson/wcxf/converters/dsixtools_definitions.py`',
       'and `dsixtools.py`; do not edit. -/', '', 'set_option autoImplicit false', '',
       'namespace Verif.Gen', '']
def tab(name, lean, f):
    d, a, b = D[name]
    for r in (0, 2, 4):
        assert all(len(t) in (2, 4) for v in d.values() for t in v)
    out.append(f'/-- `{name}`, `wcxf/converters/{f}:{a}-{b}`. -/')
    out.append(f'def {lean} : List (List Char × List (List ℕ)) := [')
    rows = []
    for k, v in d.items():
        rows.append(f'  ("{k}".toList, [' + ', '.join('[' + ','.join(map(str, t)) + ']' for t in v) + '])')
    out.append(',\n'.join(rows) + ']')
    out.append('')
tab('redundant_elements', 'dsixRedundant', 'dsixtools_definitions.py')
tab('vanishing_im_parts', 'dsixVanishingIm', 'dsixtools_definitions.py')
d, a, b = D['WC_dict_0f']
out.append(f'/-- `WC_dict_0f`, `wcxf/converters/dsixtools.py:{a}-{b}`. -/')
out.append('def dsixWC0f : List (List Char × List Char × ℕ) := [')
out.append(',\n'.join(f'  ("{k}".toList, "{v[0]}".toList, {v[1]})' for k, v in d) + ']')
out += ['', 'end Verif.Gen', '']
open(os.path.join(os.path.dirname(os.path.abspath(__file__)), '../lean/Verif/Gen/Dsix.lean'), 'w').write('\n'.join(out))
