#!/bin/sh
# Print the axioms of every property theorem (run after `lake build` in lean/).
cd "$(dirname "$0")/../lean" || exit 1
python3 - > /tmp/Axioms.lean <<'P'
import re, glob
print('import Verif')
for f in sorted(glob.glob('Verif/Props/*.lean')):
    ns = []
    for line in open(f):
        m = re.match(r'namespace (\S+)', line)
        if m: ns.append(m.group(1))
        m = re.match(r'end (\S+)', line)
        if m and ns and ns[-1] == m.group(1): ns.pop()
        m = re.match(r'theorem (C\d+_\S+)', line)
        if m: print('#print axioms ' + '.'.join(ns + [m.group(1).rstrip(':')]))
P
lake env lean /tmp/Axioms.lean
