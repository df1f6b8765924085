#!/usr/bin/env python3
"""Compare lean/Verif/Model/Networks.lean with the class attributes in /repo/riemann/networks, both read as text."""
import ast, re, sys
src = open('/repo/riemann/networks/networks.py').read()
lean = open('/verif/lean/Verif/Model/Networks.lean').read()
F = {'SYMBOL': 'symbol', 'NETWORK_NAME': 'networkName', 'SUBNET_NAME': 'subnetName', 'P2PKH_PREFIX': 'p2pkhPrefix', 'P2SH_PREFIX': 'p2shPrefix', 'SEGWIT': 'segwit',
     'P2WSH_PREFIX': 'p2wshPrefix', 'P2WPKH_PREFIX': 'p2wpkhPrefix', 'BECH32_HRP': 'bech32Hrp', 'SEGWIT_ENCODER': 'segwitEncoder', 'SEGWIT_TX_FLAG': 'segwitTxFlag',
     'FORKID': 'forkid', 'OPCODE_CHANGES': 'opcodeChanges', 'CASHADDR_PREFIX': 'cashaddrPrefix', 'CASHADDR_P2SH': 'cashaddrP2sh', 'CASHADDR_P2PKH': 'cashaddrP2pkh'}
classes, extra = {}, set()
for c in ast.parse(src).body:
    if isinstance(c, ast.ClassDef):
        d = dict(classes[c.bases[0].id]) if c.bases else {}
        for s in c.body:
            if isinstance(s, (ast.Assign, ast.AnnAssign)):
                t = s.targets[0] if isinstance(s, ast.Assign) else s.target
                if t.id in F:
                    d[F[t.id]] = s.value.id if isinstance(s.value, ast.Name) else ast.literal_eval(s.value)
                else:
                    extra.add((t.id, ast.unparse(s.value)))
        classes[c.name] = d
print('attributes not in the model:', sorted(extra))
base = classes.pop('Network')

def val(t):
    t = t.strip()
    if t.startswith('some '): t = t[5:].strip()
    if t.startswith('(') and t.endswith(')'): t = t[1:-1]
    if t == 'none': return None
    if t in ('true', 'false'): return t == 'true'
    if t in ('.bech32', '.base58'): return t[1:]
    m = re.fullmatch(r'pystr "(.*)"', t)
    if m: return m.group(1)
    if re.fullmatch(r'\d+', t): return int(t)
    if t.startswith('[('):
        return [(a, int(b, 0)) for a, b in re.findall(r'\(pystr "(\w+)", (\w+)\)', t)]
    if t.startswith('['): return bytes(int(x, 0) for x in t[1:-1].split(',') if x.strip())
    raise SystemExit('value ' + t)

nets = {}
for name, body in re.findall(r'def (\w+) : Network := \{(.*?)\}', lean, re.S):
    d = dict(base)
    for k, v in re.findall(r'(\w+) := ((?:\[\(.*?\)\]|\[[^\]]*\]|[^,\[])+?)\s*(?:,\s*(?=\w+ :=)|$)', body.strip(), re.S):
        d[k] = val(v)
    if d['opcodeChanges'] == b'': d['opcodeChanges'] = []
    nets[name.lower()] = d
bad = 0
for n, d in classes.items():
    e = nets.get(n.lower())
    if e != d:
        bad += 1
        print('DIFFERENT', n, {k: (d[k], (e or {}).get(k)) for k in d if not e or d[k] != e.get(k)})
print(len(classes), 'classes,', len(nets), 'in the model,', bad, 'different')
sup = re.findall(r"'(\w+)': (\w+)", open('/repo/riemann/networks/__init__.py').read())
lsup = re.findall(r'\(pystr "([a-z]\w+_\w+)", (\w+)\)', lean)
print('SUPPORTED', len(sup), len(lsup), [(a, b.lower()) for a, b in sup] == [(a, b.lower()) for a, b in lsup])
sys.exit(bad != 0)
