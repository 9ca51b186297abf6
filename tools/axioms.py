#!/usr/bin/env python3
"""Write section 6 of DESIGN.md (axioms of each manifest theorem) from `#print axioms`.
Needs a finished `lake build`."""
import json, re, subprocess, collections
claims = json.load(open('/verif/MANIFEST.json'))['claims']
names = [t for c in claims for t in c['theorems']]
src = 'import Verif\n' + ''.join(f'#print axioms {n}\n' for n in names)
open('/tmp/ax.lean', 'w').write(src)
out = subprocess.run(['lake', 'env', 'lean', '/tmp/ax.lean'], cwd='/verif/lean',
                     capture_output=True, text=True)
txt = re.sub(r'\n\s+', ' ', out.stdout)
ax = {}
for m in re.finditer(r"'([\w.']+)' (does not depend on any axioms|depends on axioms: \[([^\]]*)\])", txt):
    ax[m.group(1)] = tuple(sorted(x.strip() for x in m.group(3).split(','))) if m.group(3) else ()
missing = [n for n in names if n not in ax]
assert not missing, (len(missing), out.stdout[:500])
allowed = {'propext', 'Classical.choice', 'Quot.sound'}
bad = {n: a for n, a in ax.items() if not set(a) <= allowed}
assert not bad, bad
groups = collections.defaultdict(list)
for n in names:
    groups[ax[n]].append(n.removeprefix('Spdm.'))
lines = []
for a in sorted(groups, key=lambda a: (len(a), a)):
    lines.append('**' + (', '.join(f'`{x}`' for x in a) if a else 'no axioms') + '** ' + f'({len(groups[a])} theorems): '
                 + ', '.join(f'`{n}`' for n in groups[a]) + '.\n')
d = open('/verif/DESIGN.md').read()
a, b = '<!-- axioms begin -->', '<!-- axioms end -->'
i, j = d.index(a) + len(a), d.index(b)
open('/verif/DESIGN.md', 'w').write(d[:i] + '\n' + '\n'.join(lines) + d[j:])
print({k: len(v) for k, v in groups.items()})
