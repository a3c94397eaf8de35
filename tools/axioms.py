#!/usr/bin/env python3
"""Rewrites the last section of DESIGN.md: the axioms each theorem of MANIFEST.json depends on, as printed by Lean. Needs a finished `lake build`."""
import json, os, re, subprocess, collections
root = os.path.dirname(os.path.dirname(os.path.abspath(__file__)))
ths = [t for c in json.load(open(root + '/MANIFEST.json'))['claims'] for t in c['theorems']]
src = 'import Verif\n' + ''.join(f'#print axioms {t if t.startswith("Mpdata") else "Mpdata." + t}\n' for t in ths)
open('/tmp/axioms.lean', 'w').write(src)
out = subprocess.run(['lake', 'env', 'lean', '/tmp/axioms.lean'], cwd=root + '/lean', capture_output=True, text=True).stdout
out = re.sub(r'\n\s+', ' ', out)
g = collections.OrderedDict()
n = 0
for line in out.splitlines():
    m = re.match(r"'(\S+)' depends on axioms: \[(.*)\]", line) or re.match(r"'(\S+)' (does not depend on any axioms)", line)
    if not m: print('??', line); continue
    n += 1
    g.setdefault(m.group(2), []).append(m.group(1).replace('Mpdata.', ''))
assert n == len(ths), (n, len(ths))
txt = '## 4. Axioms per theorem\n\nOutput of `#print axioms` for every theorem of MANIFEST.json (regenerate with `tools/axioms.py`).\n'
for k, v in sorted(g.items(), key=lambda kv: -len(kv[1])):
    txt += f'\n**{k}** ({len(v)} theorems): ' + ', '.join(v) + '\n'
d = open(root + '/DESIGN.md').read()
i = d.find('## 4. Axioms per theorem')
d = (d if i < 0 else d[:i]).rstrip() + '\n\n' + txt
open(root + '/DESIGN.md', 'w').write(d)
print({k: len(v) for k, v in g.items()})
