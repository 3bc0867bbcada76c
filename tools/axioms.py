#!/usr/bin/env python3
"""Print the axioms of every theorem named in MANIFEST.json into AXIOMS.md (run after `lake build`)."""
import json, subprocess, re, collections, os, tempfile
root = os.path.dirname(os.path.dirname(os.path.abspath(__file__)))
claims = json.load(open(root + '/MANIFEST.json'))['claims']
src = 'import Verif\n' + ''.join(f'#print axioms {t}\n' for c in claims for t in c['theorems'])
f = tempfile.mktemp(suffix='.lean'); open(f, 'w').write(src)
out = subprocess.run(['lake', 'env', 'lean', f], cwd=root + '/lean', capture_output=True, text=True).stdout
ax = {}
for m in re.finditer(r"'([^']+)' (?:depends on axioms: \[([^\]]*)\]|does not depend on any axioms)", out):
    ax[m.group(1)] = [a.strip() for a in (m.group(2) or '').replace('\n', ' ').split(',') if a.strip()]
by = collections.defaultdict(list)
with open(root + '/AXIOMS.md', 'w') as o:
    o.write('# Axioms of each theorem\n\nGenerated by `tools/axioms.py` from `#print axioms`; P = propext, C = Classical.choice, Q = Quot.sound. No other axiom occurs.\n\n')
    for c in claims:
        o.write(f"* {c['property']}: ")
        o.write('; '.join(f"`{t.split('.')[-1]}` " + ('none' if not ax[t] else ''.join({'propext': 'P', 'Classical.choice': 'C', 'Quot.sound': 'Q'}.get(a, '!!' + a) for a in sorted(ax[t]))) for t in c['theorems']) + '\n')
print(len(ax), {a for v in ax.values() for a in v})
