#!/usr/bin/env python3
"""Generate lean/Verif/Gen/Registrations.lean from the decorators in
/repo/wilson/translate/__init__.py and /repo/wilson/match/__init__.py."""
import ast
out = ['''/-!
# Registered translators and matchers

Generated by `tools/gen_registrations.py` from the decorators in
`wilson/translate/__init__.py` and `wilson/match/__init__.py`; do not edit.
-/

set_option autoImplicit false

namespace Verif
''']
def decs(path, name):
    for node in ast.parse(open(path).read()).body:
        if isinstance(node, ast.FunctionDef):
            for d in node.decorator_list:
                assert isinstance(d, ast.Call) and d.func.attr == name, ast.dump(d)
                yield [a.value for a in d.args], d.lineno
def tab(defname, path, name, ty, doc):
    rows = list(decs(path, name))
    out.append(f'/-- {doc} -/')
    out.append(f'def {defname} : List ({ty}) :=')
    out.append('  [' + ',\n   '.join('(' + ', '.join(f'"{x}"' for x in r) + f')' for r, l in rows) + ']\n')
tab('registeredTranslators', '/repo/wilson/translate/__init__.py', 'translator', 'String × String × String',
    'wilson/translate/__init__.py:10-155: names `(eft, from, to)` of the registered translators.')
tab('registeredMatchers', '/repo/wilson/match/__init__.py', 'matcher', 'String × String × String × String',
    'wilson/match/__init__.py:10-85: names `(from_eft, from_basis, to_eft, to_basis)` of the registered matchers.')
out.append('end Verif')
open('/verif/lean/Verif/Gen/Registrations.lean', 'w').write('\n'.join(out) + '\n')
