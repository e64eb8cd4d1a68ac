#!/usr/bin/env python3
"""The names of the JMS coefficients (data/run_wet_definitions_coeffs.json), as a search tree."""
import json, os
OUT = os.path.join(os.path.dirname(__file__), '..', 'lean', 'Verif', 'Gen', 'JmsKeys.lean')
d = json.load(open('/repo/wilson/data/run_wet_definitions_coeffs.json'))


def enc(s):
    n = 1
    for c in s:
        n = n * 256 + ord(c)
    return n


names = sorted({k for s in d.values() for k in s}, key=enc)


def tree(l):
    if not l:
        return '.leaf'
    m = len(l) // 2
    return '(.node %s n!"%s" %s)' % (tree(l[:m]), l[m], tree(l[m + 1:]))


parts = []
CH = 8
# subtrees as separate definitions keep the terms small
def build(l, depth, name):
    if depth == 0 or len(l) < 3:
        parts.append('def %s : NTree := %s' % (name, tree(l)))
        return
    m = len(l) // 2
    build(l[:m], depth - 1, name + 'l')
    build(l[m + 1:], depth - 1, name + 'r')
    parts.append('def %s : NTree := .node %sl n!"%s" %sr' % (name, name, l[m], name))


build(names, 5, 'keys')
open(OUT, 'w').write('''import Verif.Model.PyStr

/-!
# The names of the coefficients of the JMS basis

Generated by `tools/gen_jmskeys.py` from /repo/wilson/data/run_wet_definitions_coeffs.json
(the lists of the coefficients of the sectors), as a binary search tree.
-/

set_option autoImplicit false

namespace Verif.Gen.JmsKeys
open Verif.Py

%s

end Verif.Gen.JmsKeys
''' % '\n\n'.join(parts))
print(len(names))
