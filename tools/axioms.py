#!/usr/bin/env python3
"""Write AXIOMS.txt: the axioms of every theorem named in MANIFEST.json (needs a finished `lake build`)."""
import json, re, subprocess
ths = [t for c in json.load(open('/verif/MANIFEST.json'))['claims'] for t in c['theorems']]
open('/tmp/ax.lean', 'w').write('import Verif\n' + '\n'.join(f'#print axioms {t}' for t in ths))
out = subprocess.run(['lake', 'env', 'lean', '/tmp/ax.lean'], cwd='/verif/lean', capture_output=True, text=True).stdout
out = out.replace('\n ', ' ').strip().split('\n')
assert len(out) == len(ths), (len(out), len(ths))
with open('/verif/AXIOMS.txt', 'w') as f:
    for l in out:
        m = re.match(r"'(\S+)' (?:depends on axioms: \[(.*)\]|does not depend on any axioms)", l)
        f.write(f"{m.group(1)}: {m.group(2) or 'none'}\n")
