#!/usr/bin/env python3
"""Write AXIOMS.md: the axioms each theorem of MANIFEST.json depends on, as Lean reports them."""
import json, re, subprocess, collections
names = [t for c in json.load(open('/verif/MANIFEST.json'))['claims'] for t in c['theorems']]
open('/tmp/axioms.lean', 'w').write('import Verif\n' + ''.join(f'#print axioms {t}\n' for t in names))
out = subprocess.run(['lake', 'env', 'lean', '/tmp/axioms.lean'], cwd='/verif/lean', capture_output=True, text=True).stdout
by = collections.defaultdict(list)
for m in re.finditer(r"'([\w.]+)' (?:depends on axioms: \[([^\]]*)\]|does not depend on any axioms)", out):
    by[tuple(sorted(re.split(r',\s*', m.group(2)))) if m.group(2) else ()].append(m.group(1).split('.')[-1])
assert sum(map(len, by.values())) == len(names)
s = '# Axioms per theorem\n\nFrom `#print axioms`; all names are in `OrdinalMap.Props`. Regenerate with `tools/axioms.py`.\n'
for k in sorted(by, key=len):
    s += f'\n## {", ".join(f"`{a}`" for a in k) or "none"} ({len(by[k])})\n\n{", ".join(sorted(by[k]))}\n'
open('/verif/AXIOMS.md', 'w').write(s)
