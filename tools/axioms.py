"""Write AXIOMS.md: the axioms each theorem named in MANIFEST.json depends on (run after lake build)."""
import json, re, subprocess
m = json.load(open('/verif/MANIFEST.json'))
names = []
for c in m['claims']:
    for t in c['theorems']:
        if t not in names: names.append(t)
open('/tmp/axioms.lean', 'w').write('import Verif\n' + ''.join('#print axioms %s\n' % n for n in names))
out = subprocess.run(['lake', 'env', 'lean', '/tmp/axioms.lean'], cwd='/verif/lean', capture_output=True, text=True).stdout
ax = {}
for g in re.finditer(r"'([^']+)' (?:depends on axioms: \[([^\]]*)\]|does not depend on any axioms)", out):
    ax[g.group(1)] = ', '.join(x.strip() for x in (g.group(2) or '').split(',') if x.strip()) or 'none'
assert set(ax) == set(names), len(set(names) - set(ax))
bad = {n: a for n, a in ax.items() if not set(a.split(', ')) <= {'none', 'propext', 'Classical.choice', 'Quot.sound'}}
assert not bad, bad
with open('/verif/AXIOMS.md', 'w') as f:
    f.write('# Axioms of the claimed theorems\n\nOutput of `#print axioms`, collected by `tools/axioms.py`.\n\n| Property | Theorem | Axioms |\n|---|---|---|\n')
    for c in m['claims']:
        for t in c['theorems']:
            f.write('| %s | %s | %s |\n' % (c['property'], t.replace('Xacml.', ''), ax[t]))
print(len(ax))
