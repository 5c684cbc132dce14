"""Write AXIOMS.md: the axioms each claimed theorem depends on.  Needs a finished `lake build` in lean/."""
import json, os, subprocess
root = os.path.dirname(os.path.dirname(os.path.abspath(__file__)))
claims = json.load(open(root + '/MANIFEST.json'))['claims']
names = [t for c in claims for t in c['theorems']]
src = 'import Verif\nopen GoIdentity GoIdentity.Conc GoIdentity.Tag\n' + ''.join('#print axioms %s\n' % n for n in names)
tmp = '/tmp/axioms_check.lean'
open(tmp, 'w').write(src)
out = subprocess.run(['lake', 'env', 'lean', tmp], cwd=root + '/lean', capture_output=True, text=True).stdout
rows = {}
for line in out.replace('\n ', ' ').splitlines():
    if line.startswith("'"):
        n, rest = line[1:].split("'", 1); n = n.split('.')[-1]
        rows[n] = 'none' if 'does not depend' in rest else rest.split('[', 1)[1].rstrip(']')
with open(root + '/AXIOMS.md', 'w') as f:
    f.write('# Axioms of every claimed theorem\n\nGenerated by `tools/axioms.py` from `#print axioms`.\n\n')
    f.write('| Property | Theorem | Axioms |\n|---|---|---|\n')
    for c in claims:
        for t in c['theorems']:
            f.write('| %s | `%s` | %s |\n' % (c['property'], t, rows.get(t, 'MISSING')))
print(len(names), 'theorems;', sum(t not in rows for t in names), 'missing;', sorted(set(rows.values())))
