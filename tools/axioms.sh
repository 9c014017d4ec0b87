#!/bin/bash
# Print the axioms of every property theorem; fails if one is not among the three standard ones.
cd "$(dirname "$0")/../lean" || exit 1
cp ../tools/Axioms.lean.txt /tmp/AxiomsCheck.lean
lake env lean /tmp/AxiomsCheck.lean > /tmp/axioms.out 2>&1
grep -c "depends on axioms\|does not depend" /tmp/axioms.out
python3 - <<'P'
import re
s=open('/tmp/axioms.out').read()
ax=set()
for m in re.finditer(r'depends on axioms: \[(.*?)\]', s, re.S):
    ax |= {a.strip() for a in m.group(1).split(',')}
print('axioms used:', sorted(ax))
bad = ax - {'propext','Classical.choice','Quot.sound'}
print('BAD' if bad or 'error' in s else 'OK', bad)
P
