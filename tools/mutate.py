#!/usr/bin/env python3
"""Seed wrong programs: for each entry of a JSON list {"def","file","old","new","claim","props"} copy lean/ to a scratch directory,
edit the model there, rebuild, and append one line to seeded/LOG.jsonl with the declarations that failed.
usage: mutate.py mutants.json [scratch-dir]"""
import json, os, re, shutil, subprocess, sys
V = '/verif'
scratch = sys.argv[2] if len(sys.argv) > 2 else '/tmp/mutw/lean'
muts = json.load(open(sys.argv[1]))
base = scratch + '.base'
shutil.rmtree(base, ignore_errors=True)
shutil.copytree(f'{V}/lean', base, symlinks=True)
# the vectors of the library's tests are tests: a wrong program must be caught by a theorem
shutil.rmtree(f'{base}/Verif/Vectors', ignore_errors=True)
root = [l for l in open(f'{base}/Verif.lean') if not l.startswith('import Verif.Vectors')]
open(f'{base}/Verif.lean', 'w').writelines(root)
done = set()
log = f'{V}/seeded/LOG.jsonl'
if os.path.exists(log):
    for l in open(log):
        d = json.loads(l); done.add((d['definition'], d['edit']))

def decls(path):
    out = []
    for n, l in enumerate(open(path), 1):
        m = re.match(r"\s*(?:@\[[^\]]*\]\s*)?(?:private |protected |noncomputable )*(theorem|lemma|def|example|instance)\s*([^\s:({\[]*)", l)
        if m: out.append((n, m.group(2) or m.group(1)))
    return out

def imports(path):
    return [l.split()[1] for l in open(path) if l.startswith('import Verif')]

for m in muts:
    edit = f"{m['old']}  ==>  {m['new']}"
    if (m['def'], edit) in done and not m.get('again'): continue
    shutil.rmtree(scratch, ignore_errors=True)
    shutil.copytree(base, scratch, symlinks=True)
    p = f"{scratch}/Verif/{m['file']}"
    s = open(p).read()
    if s.count(m['old']) != 1 and not m.get('nth'):
        print('SKIP (occurrences: %d)' % s.count(m['old']), m['def'], m['old']); continue
    if m.get('nth'):
        parts = s.split(m['old']); k = m['nth']
        s = m['old'].join(parts[:k]) + m['new'] + m['old'].join(parts[k:])
    else:
        s = s.replace(m['old'], m['new'])
    open(p, 'w').write(s)
    r = subprocess.run(['nice', 'lake', 'build'], cwd=scratch, capture_output=True, text=True)
    out = r.stdout + r.stderr
    failed, badmods = [], set()
    for f, n in re.findall(r'^error: (Verif/\S+\.lean):(\d+):', out, re.M):
        badmods.add(f[:-5].replace('/', '.'))
        ds = [d for k, d in decls(f'{scratch}/{f}') if k <= int(n)]
        name = f[6:-5] + ':' + (ds[-1] if ds else '?')
        if name not in failed: failed.append(name)
    # an edit that does not type-check in the model itself is not a program: not logged
    if failed and all(x.startswith(m['file'][:-5] + ':') for x in failed):
        print('INVALID', m['def'], '|', m['new'][:70].replace('\n', ' '), flush=True); continue
    # modules that could not be built because an import failed
    graph = {}
    for root, _, fs in os.walk(f'{scratch}/Verif'):
        for f in fs:
            if f.endswith('.lean'):
                q = os.path.join(root, f)
                graph[os.path.relpath(q, scratch)[:-5].replace('/', '.')] = imports(q)
    blocked = set()
    ch = True
    while ch:
        ch = False
        for k, ds in graph.items():
            if k not in badmods and k not in blocked and any(d in badmods or d in blocked for d in ds):
                blocked.add(k); ch = True
    bl = sorted(b[6:] for b in blocked if b.startswith('Verif.Props'))
    rec = {"definition": m['def'], "file": m['file'], "edit": edit, "claim": m['claim'], "properties": m.get('props', []),
           "theorems_failed": failed, "blocked_modules": bl, "theorems_tightened": m.get('tightened', []), "survived": r.returncode == 0}
    with open(log, 'a') as f: f.write(json.dumps(rec, ensure_ascii=False) + '\n')
    print(('SURVIVED ' if rec['survived'] else 'killed ') + m['def'], '|', m['new'][:70].replace('\n', ' '), '|', failed[:4], flush=True)
