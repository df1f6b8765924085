#!/usr/bin/env python3
"""Write lean/Verif/Vectors/*.lean: the vectors of the tests of /repo, asked of the model.

The helpers and tests are read as text with `ast`; only literals, `bytes.fromhex`, `bytes([..])`, `+`, `*`, subscripts, names and the
`from_hex` of the transaction classes (kept as the bytes) are evaluated.  No code of /repo is run.
"""
import ast, os, sys

REPO = '/repo/riemann'
OUT = os.path.join(os.path.dirname(os.path.dirname(os.path.abspath(__file__))), 'lean', 'Verif', 'Vectors')


class Reader:
    def __init__(self, path, names=None):
        self.names = dict(names or {})
        for node in ast.parse(open(os.path.join(REPO, path)).read()).body:
            if isinstance(node, ast.Assign) and isinstance(node.targets[0], ast.Name):
                try:
                    self.names[node.targets[0].id] = self.ev(node.value)
                except NotImplementedError as e:
                    print('skipped', path, node.targets[0].id, e, file=sys.stderr)

    def ev(self, n):
        if isinstance(n, ast.Constant):
            return n.value
        if isinstance(n, ast.List):
            return [self.ev(x) for x in n.elts]
        if isinstance(n, ast.Tuple):
            return tuple(self.ev(x) for x in n.elts)
        if isinstance(n, ast.Dict):
            return {self.ev(k): self.ev(v) for k, v in zip(n.keys, n.values)}
        if isinstance(n, ast.Name):
            return self.names[n.id]
        if isinstance(n, ast.UnaryOp) and isinstance(n.op, ast.USub):
            return -self.ev(n.operand)
        if isinstance(n, ast.BinOp):
            a, b = self.ev(n.left), self.ev(n.right)
            return {ast.Add: lambda: a + b, ast.Mult: lambda: a * b, ast.Pow: lambda: a ** b, ast.Sub: lambda: a - b}[type(n.op)]()
        if isinstance(n, ast.Subscript):
            if isinstance(n.slice, ast.Slice):
                s = n.slice
                return self.ev(n.value)[slice(*[None if x is None else self.ev(x) for x in (s.lower, s.upper, s.step)])]
            return self.ev(n.value)[self.ev(n.slice)]
        if isinstance(n, ast.Attribute):
            return self.names[ast.unparse(n)]
        if isinstance(n, ast.Call):
            f = ast.unparse(n.func)
            args = [self.ev(x) for x in n.args]
            if f in ('bytes.fromhex', 'bytearray.fromhex') or f.endswith('.from_hex'):
                return bytes.fromhex(args[0])
            if f in ('bytes', 'bytearray'):
                return bytes(*args)
            if f.endswith('.encode'):
                return self.ev(n.func.value).encode('utf-8')
            if f.endswith('.format'):
                return self.ev(n.func.value).format(*args, **{k.arg: self.ev(k.value) for k in n.keywords})
        raise NotImplementedError(ast.unparse(n)[:80])


EX = Reader('script/examples.py').names
H = Reader('tests/helpers.py', {'examples.' + k: v for k, v in EX.items()}).names
OW = Reader('tests/tx/helpers/overwinter_helpers.py').names
SAP = Reader('tests/tx/helpers/sapling_helpers.py').names
DCR = Reader('tests/tx/helpers/decred_helpers.py').names
BLK = Reader('tests/test_blake256.py').names
B58 = Reader('tests/encoding/test_base58.py').names
B32 = Reader('tests/encoding/test_bech32.py').names


def b(x):
    """bytes"""
    x = bytes(x)
    return f'(hx {len(x)} 0x{x.hex()})' if x else '([] : Bytes)'


def s(x):
    """text"""
    if len(x) > 300 or any(ord(c) > 126 or ord(c) < 32 for c in x):
        return f'(chars (hx {len(x)} 0x{"".join("%02x" % ord(c) for c in x)}))'
    return '(pystr "' + x.replace('\\', '\\\\').replace('"', '\\"') + '")'


def i(x):
    return f'({x})'


class File:
    def __init__(self, name, doc, imports):
        self.name, self.lines = name, []
        self.head = ''.join(f'import Verif.{m}\n' for m in imports)
        self.head += f'\n/-! {doc}\n\nWritten by `tools/vectors.py`; these are tests of the model, no theorem depends on them. -/\n\nnamespace Verif.Vectors\n\nset_option maxRecDepth 100000\n'

    def note(self, t):
        self.lines.append(f'\n/-! {t} -/\n')

    def let(self, name, ty, val):
        self.lines.append(f'/-- Data of the tests. -/\ndef {name} : {ty} := {val}')

    def ex(self, p):
        self.lines.append(f'example : {p} := by decide +kernel')

    def eq(self, call, want):
        self.ex(f'{call} = {want}')

    def ok(self, call, *conds):
        self.ex(f'ok ({call}) (fun r => {" && ".join("decide (" + c + ")" for c in conds)})')

    def err(self, call, e='valueError'):
        self.ex(f'fails ({call}) .{e}')

    def write(self):
        os.makedirs(OUT, exist_ok=True)
        with open(os.path.join(OUT, self.name + '.lean'), 'w') as f:
            f.write(self.head + '\n'.join(self.lines) + '\n\nend Verif.Vectors\n')


def utils():
    F = File('Utils', 'tests/test_utils.py, test_blake256.py, tx/test_shared.py and networks/test_networks.py.',
             ['Vectors.Basic', 'Model.ByteData', 'Model.Blake256'])
    F.note('test_utils.py:14-43')
    for n, w in [(0, '00'), (0xff, 'ff'), (0x100, '0001'), (0xabcdef, 'efcdab')]:
        F.eq(f'i2le {n}', f'.ok {b(bytes.fromhex(w))}')
    for n, k, w in [(0, 4, '00' * 4), (0xff, 1, 'ff'), (0x100, 8, '0001000000000000'), (0xabcdef, 5, 'efcdab0000')]:
        F.eq(f'i2lePadded {n} {k}', f'.ok {b(bytes.fromhex(w))}')
    for n, w in [(0, '00'), (128, '8000'), (-128, '80'), (127, '7f'), (2 ** 24, '00000001'), (-2 ** 24, '000000ff')]:
        F.eq(f'i2leScript ({n})', f'.ok {s(w)}')
    F.note('test_utils.py:45-90')
    for w, n in [('00' * 4, 0), ('ff', 0xff), ('0001000000000000', 0x100), ('efcdab0000', 0xabcdef)]:
        F.eq(f'le2i {b(bytes.fromhex(w))}', str(n))
    for w, n in [('00' * 4, 0), ('ff', 0xff), ('0001000000000000', 0x01000000000000), ('efcdab0000', 0xefcdab0000)]:
        F.eq(f'be2i {b(bytes.fromhex(w))}', str(n))
    for n, w in [(0, '00'), (0xff, 'ff'), (0xffff, 'ffff')]:
        F.eq(f'i2be {n}', f'.ok {b(bytes.fromhex(w))}')
    for n, k, w in [(0, 5, '00' * 5), (0xff, 3, '0000ff'), (0xffff, 2, 'ffff')]:
        F.eq(f'i2bePadded {n} {k}', f'.ok {b(bytes.fromhex(w))}')
    for x, y in [('00', '00'), ('00aa', 'aa00'), ('ff', 'ff'), ('00abcdef', 'efcdab00')]:
        F.eq(f'changeEndianness {b(bytes.fromhex(x))}', b(bytes.fromhex(y)))
    F.note('test_utils.py:92-160, the hash functions')
    F.eq(f'hashlib.rmd160 []', b(bytes.fromhex('9c1185a5c5e9fc54612808977ee8f548b2258d31')))
    F.eq(f'hashlib.rmd160 {b(b"message digest")}', b(bytes.fromhex('5d0689ef49d2fae572b881b123a85ffa21595f36')))
    F.eq(f'hashlib.sha256 {b(H["P2WSH"]["ser"]["witnesses"][0]["wit_script"])}', b(H['P2WSH']['ser']['ins'][0]['pk_script'][2:]))
    for k in (0, 1):
        F.eq(f'btc.hash160 {b(bytes.fromhex(H["PK"]["human"][k]["pk"]))}', b(H['PK']['ser'][k]['pkh']))
    F.eq(f'btc.hash160 {b(H["P2WPKH_ADDR"]["pubkey"])}', b(H['P2WPKH_ADDR']['pkh']))
    for m, w in [(b'\x00', '1406e05881e299367766d313e26c05564ec91bf721d31726bd6e46e60689539a'),
                 (b'abc', '4f8b42c22dd3729b519ba6f68d2da7cc5b2d606d05daed5ad5128cc03e6c6358'),
                 (b'The quick brown fox jumps over the lazy dog', '6d37795021e544d82b41850edf7aabab9a0ebe274e54a519840c4666f35b3937')]:
        F.eq(f'btc.hash256 {b(m)}', b(bytes.fromhex(w)))
    F.note('test_utils.py:162-180 and test_blake256.py: all vectors')
    F.eq('dcr.hash160 [0]', 'hashlib.rmd160 (blake256 [0])')
    F.eq('dcr.hash256 [0]', 'blake256 (blake256 [0])')
    for w, m in BLK['TEST_VECTORS']:
        F.eq(f'Blake.blakeHash {b(m.encode())}', b(bytes.fromhex(w)))
    F.note('test_shared.py:8-66, byte objects')
    F.eq('(⟨[0xff], true, false⟩ : ByteData).repr (pystr "ByteData")', '(pystr "ByteData: bytearray(b\'\\\\xff\')")')
    for x, k in [('ff', 0), ('dd', 1), ('88', 2), ('00', -1)]:
        F.eq(f'(⟨hx 3 0xffdd88, true, false⟩ : ByteData).find (.bytes (hx 1 0x{x}))', f'.ok ({k})')
    F.eq('(⟨hx 3 0xffdd88, true, false⟩ : ByteData).hex', s('ffdd88'))
    F.note('test_shared.py:69-150, `VarInt`')
    for n, w in [(0xfb, 'fb'), (0xff, 'fdff00'), (0xffff, 'fdffff'), (0xffffffff, 'feffffffff'), (2 ** 64 - 1, 'ff' * 9),
                 (0x0123456789abcdef, 'ffefcdab8967452301'), (0x234000000000, 'ff0000000040230000')]:
        F.ok(f'VarInt.make {n}', f'r.bytes = {b(bytes.fromhex(w))}')
        F.ok(f'do (← VarInt.make {n}).copy', f'r.bytes = {b(bytes.fromhex(w))}')
    F.err('VarInt.make (-5)')
    F.err(f'VarInt.make {2 ** 64 + 1}')
    for w in ('fd9123', '00', 'ff' * 9):
        F.ok(f'VarInt.fromBytes bitcoinMain {b(bytes.fromhex(w))}', f'r.bytes = {b(bytes.fromhex(w))}')
    F.err('VarInt.fromBytes bitcoinMain [0xfe]')
    F.err('VarInt.fromBytes bitcoinMain [0xfe, 0, 0, 0]')
    F.err('VarInt.fromBytes zcashOverwinterMain [0xfd, 0, 0]')
    F.err('VarInt.fromBytes zcashOverwinterMain [0xfe, 0, 0, 0, 0]')
    F.note('test_networks.py and test_riemann.py')
    F.ex('∀ p ∈ supported, getNetwork p.1 = .ok p.2')
    F.err('getNetwork (pystr "toast")')
    F.write()


def script():
    F = File('Script', 'tests/script/test_serialization.py.', ['Vectors.Basic', 'Model.Script'])
    m = H['MSIG_2_2']
    F.eq(f'serialize bitcoinMain {s(m["redeem_script"])}', f'.ok {b(m["ser_script"])}')
    F.eq('serialize bitcoinMain (pystr "OP_IF")', '.ok [99]')
    F.err('serialize bitcoinMain (pystr "OP_PUSHDATA4")', 'notImplementedError')
    F.err('serialize bitcoinMain (pystr "OP_CODESEPARATOR")', 'notImplementedError')
    F.err('serialize bitcoinMain (pystr "OP_NOTAREALOPCODE")')
    F.eq(f'hexSerialize bitcoinMain {s(m["redeem_script"])}', f'.ok {s(m["ser_script"].hex())}')
    F.eq('hexSerialize bitcoinMain (pystr "OP_IF")', '.ok (pystr "63")')
    for k in ('P2SH_PD1', 'P2SH_PD2'):
        t, w = H[k]['human']['ins'][0]['script_sig'], H[k]['ser']['ins'][0]['script_sig']
        F.eq(f'hexSerialize bitcoinMain {s(t)}', f'.ok {s(w.hex())}')
        F.eq(f'hexDeserialize bitcoinMain {s(w.hex())}', f'.ok {s(t)}')
    F.eq(f'deserialize bitcoinMain {b(m["ser_script"])}', f'.ok {s(m["redeem_script"])}')
    F.eq('deserialize bitcoinMain [99]', '.ok (pystr "OP_IF")')
    F.err('deserialize bitcoinMain [5, 0, 0]', 'indexError')
    F.err('deserialize bitcoinMain [0xab]', 'notImplementedError')
    F.err('deserialize bitcoinMain [0xfe]')
    F.eq(f'hexDeserialize bitcoinMain {s(m["ser_script"].hex())}', f'.ok {s(m["redeem_script"])}')
    F.eq('hexDeserialize bitcoinMain (pystr "63")', '.ok (pystr "OP_IF")')
    for h, o in [('a8', 'OP_BLAKE256'), ('c0', 'OP_SHA256')]:
        F.eq(f'hexDeserialize decredMain {s(h)}', f'.ok {s(o)}')
        F.eq(f'hexSerialize decredMain {s(o)}', f'.ok {s(h)}')
    F.err('deserialize bitcoinMain [78]', 'notImplementedError')
    F.write()


def encoding():
    F = File('Encoding', 'tests/encoding/test_base58.py, test_bech32.py and test_addresses.py.', ['Vectors.Basic', 'Model.Addresses'])
    PK, A = H['PK']['ser'][0], H['ADDR']
    F.note('test_base58.py')
    F.err(f'Base58.decode btc {s("13VmALKHkCdSN1JULkP6RqW3LcbpWvgryW")}')
    F.eq(f'Base58.decode btc {s("1P86rvoC4bTympTEdXnw9HhWVxb4")} false', f'.ok (0 :: {b(PK["pkh"])})')
    F.eq(f'Base58.encodeWithChecksum btc (0 :: {b(PK["pkh"])})', f'.ok {s(A[0]["p2pkh"])}')
    F.eq(f'Base58.decodeWithChecksum btc {s(A[0]["p2pkh"])}', f'.ok (0 :: {b(PK["pkh"])})')
    F.eq(f'Base58.hasChecksum btc {s(A[0]["p2pkh"])}', '.ok true')
    F.eq(f'Base58.hasChecksum btc {s("1P86rvoC4bTympTEdXnw9HhWVxb4")}', '.ok false')
    for t, p, h in B58['DCR_ADDR']:
        F.eq(f'Base58.encode dcr {b(p + h)}', f'.ok {s(t)}')
        F.eq(f'Base58.decode dcr {s(t)}', f'.ok {b(p + h)}')
    F.note('test_bech32.py')
    for t in B32['VALID_CHECKSUM']:
        F.ex(f'(Bech32.bech32Decode {s(t)}).isSome')
        pos = t.rfind('1')
        F.eq(f'Bech32.bech32Decode {s(t[:pos + 1] + chr(ord(t[pos + 1]) ^ 1) + t[pos + 2:])}', 'none')
    for t in B32['INVALID_CHECKSUM']:
        F.eq(f'Bech32.bech32Decode {s(t)}', 'none')
    for a, h in B32['VALID_ADDRESS']:
        hrp, sc = a[:2].lower(), bytes.fromhex(h)
        v = sc[0] - 0x50 if sc[0] else 0
        F.eq(f'Bech32.segwitDecode {s(hrp)} {s(a)}', f'some ({v}, ({b(sc[2:])}).map (·.toNat))')
        F.eq(f'Bech32.segwitEncode {s(hrp)} {v} (({b(sc[2:])}).map (·.toNat))', f'.ok (some {s(a.lower())})')
        if hrp != 'bc':
            F.eq(f'Bech32.segwitDecode {s("bc")} {s(a)}', 'none')
    for a in B32['INVALID_ADDRESS']:
        F.eq(f'Bech32.segwitDecode {s("bc")} {s(a)}', 'none')
        F.eq(f'Bech32.segwitDecode {s("tb")} {s(a)}', 'none')
    for hrp, v, n in B32['INVALID_ADDRESS_ENC']:
        F.eq(f'Bech32.segwitEncode {s(hrp)} {v} (List.replicate {n} 0)', '.ok none')
    F.err('Bech32.encode zcashSproutMain (List.replicate 32 0)')
    F.err('Bech32.decode zcashSproutMain (List.replicate 32 \'0\')')
    F.eq('Bech32.convertbits [2 ^ 5 + 1] 5 8', 'none')
    F.note('test_addresses.py')
    I, M, W, WP, C = H['OP_IF'], H['MSIG_2_2'], H['P2WSH'], H['P2WPKH_ADDR'], H['CASHADDR']
    wa, wp = W['human']['ins'][0]['addr'], W['ser']['ins'][0]['pk_script']

    def addr(call, want):
        F.eq(f'Addresses.{call}', f'.ok (some {s(want)})')

    def byts(call, want):
        F.eq(f'Addresses.{call}', f'.ok {b(want)}')
    addr('makeP2shAddress btc (pystr "OP_IF")', I['p2sh'])
    addr(f'makeP2shAddress btc {s(M["redeem_script"])}', M['p2sh'])
    addr(f'makeP2wshAddress btc {s(W["human"]["witnesses"][0]["wit_script"])}', wa)
    addr('makeP2pkhAddress btc (List.replicate 65 0)', A[0]['p2pkh'])
    addr('makeP2pkhAddress btc (List.replicate 65 0x11)', A[1]['p2pkh'])
    addr(f'makeP2wpkhAddress btc {b(WP["pubkey"])}', WP['address'])
    for t, p, h in [(I['p2sh'], b'\x05', I['script_hash']), (M['p2sh'], b'\x05', M['script_hash']), (wa, b'\x00\x20', wp[2:]),
                    (WP['address'], b'\x00\x14', WP['pkh']), (A[0]['p2pkh'], b'\x00', PK['pkh'])]:
        byts(f'parse btc {s(t)}', p + h)
        byts(f'parseHash btc {s(t)}', h)
    F.err(f'Addresses.parse btc {s("This is not a valid address.")}')
    F.err(f'Addresses.parse btc {s("bc1blahblahblah")}')
    byts(f'parseHash bch {s(I["p2sh"])}', I['script_hash'])
    byts(f'parseHash bch {s(I["cashaddr"])}', I['script_hash'])
    F.eq(f'Addresses.parseHash bch {s(C["p2pkh"])}', f'.ok (bch.hash160 {b(C["pubkey"])})')
    addr('makeLegacyP2shAddress bch (pystr "OP_IF")', I['p2sh'])
    addr('makeShAddress bch (pystr "OP_IF")', I['cashaddr'])
    addr(f'makeLegacyP2pkhAddress bch {b(C["pubkey"])}', C['legacy_p2pkh'])
    addr(f'makePkhAddress bch {b(C["pubkey"])}', C['p2pkh'])
    for sc, t in [(I['output_script'], I['p2sh']), (wp, wa), (PK['pkh_output'], A[0]['p2pkh']), (WP['output'], WP['address'])]:
        addr(f'fromOutputScript btc {b(sc)}', t)
        byts(f'toOutputScript btc {s(t)}', sc)
    F.err('Addresses.fromOutputScript btc (List.replicate 34 0x8e)')
    F.err(f'Addresses.toOutputScript btc {s("1111111111111111111111111111111111177fdsQ")}')
    for sc, t in [(PK['pkh_output'], A[0]['p2pkh_cashaddr']), (I['output_script'], I['cashaddr'])]:
        addr(f'fromOutputScript bch {b(sc)}', t)
        byts(f'toOutputScript bch {s(t)}', sc)
    F.write()


def tx():
    F = File('Tx', 'tests/tx/test_tx.py.', ['Vectors.Basic', 'Model.Sighash'])
    P, S, W, WP = H['P2PKH1'], H['P2SH'], H['P2WSH'], H['P2WPKH']
    p, n = P['ser'], P['ser']['ins'][0]
    F.note('test_tx.py:8-80, `Outpoint`')
    F.ok(f'Outpoint.make {b(n["hash"])} {b(n["index"])}', f'r.bytes = {b(n["hash"] + n["index"])}', f'r.txId = {b(n["hash"])}', f'r.index = {b(n["index"])}')
    F.err(f'Outpoint.make [0xff] {b(n["index"])}')
    F.err(f'Outpoint.make {b(n["hash"])} (List.replicate 5 0)')
    F.ok(f'do (← Outpoint.make {b(n["hash"])} {b(n["index"])}).copy', f'r.bytes = {b(n["outpoint"])}')
    F.ok(f'Outpoint.fromBytes {b(n["outpoint"])}', f'r.bytes = {b(n["outpoint"])}', f'r.txId = {b(n["hash"])}', f'r.index = {b(n["index"])}')
    F.note('test_tx.py:83-170, `TxIn`')
    F.let('o1', 'Py Outpoint', f'Outpoint.make {b(n["hash"])} {b(n["index"])}')
    F.let('i1', 'Py TxIn', f'do TxIn.make (← o1) {b(n["stack_script"])} {b(n["redeem_script"])} {b(n["sequence"])}')
    F.ok('i1', f'r.bytes = {b(p["tx"]["in"])}', f'r.outpoint.bytes = {b(n["outpoint"])}')
    F.ok('do (← i1).copy', f'r.bytes = {b(p["tx"]["in"])}')
    F.err(f'do TxIn.make (← o1) (List.replicate 1000 0) (List.replicate 1000 0) {b(n["sequence"])}')
    F.ok(f'TxIn.fromBytes bitcoinMain {b(p["tx"]["in"])}', f'r.bytes = {b(p["tx"]["in"])}', f'r.outpoint.bytes = {b(n["outpoint"])}',
         f'r.sequence = {b(n["sequence"])}', f'r.stackScript = {b(n["stack_script"])}', f'r.redeemScript = {b(n["redeem_script"])}')
    m = S['ser']['ins'][0]
    F.ok(f'TxIn.fromBytes bitcoinMain {b(m["input"])}', f'r.bytes = {b(m["input"])}', f'r.outpoint.bytes = {b(m["outpoint"])}',
         f'r.sequence = {b(m["sequence"])}', f'r.stackScript = {b(m["stack_script"])}', f'r.redeemScript = {b(m["redeem_script"])}')
    m = W['ser']['ins'][0]
    sq = W['human']['ins'][0]['sequence']
    F.ok(f'TxIn.fromBytes bitcoinMain {b(m["input"])}', f'r.bytes = {b(m["input"])}', f'r.outpoint.bytes = {b(m["outpoint"])}',
         f'i2be {sq} = .ok r.sequence', 'r.stackScript = []', 'r.redeemScript = []')
    for h in H['COINBASE_REGRESSION']:
        F.ok(f'TxIn.fromBytes bitcoinMain {b(bytes.fromhex(h))}', f'r.bytes = {b(bytes.fromhex(h))}')
    F.note('test_tx.py:173-215, `TxOut`')
    o = p['outs'][0]
    F.ok(f'TxOut.make {b(o["value"])} {b(o["pk_script"])}', f'r.bytes = {b(o["out"])}', f'r.copy = .ok r')
    F.ok(f'TxOut.fromBytes bitcoinMain {b(o["value"] + bytes([0x19]) + o["pk_script"])}', f'r.value = {b(o["value"])}', f'r.outputScript = {b(o["pk_script"])}')
    F.err('TxOut.fromBytes bitcoinMain (List.replicate 10 0xff)', 'notImplementedError')
    F.note('test_tx.py:218-290, witnesses')
    st = W['ser']['witnesses'][0]['wit_stack_items']
    x = st[1]
    F.ok(f'WitnessStackItem.make {b(x)}', f'r.item = {b(x)}', f'r.bytes = {b(bytes([len(x)]) + x)}')
    F.ok(f'WitnessStackItem.fromBytes bitcoinMain {b(bytes([len(x)]) + x)}', f'r.item = {b(x)}', f'r.bytes = {b(bytes([len(x)]) + x)}')
    F.ok('WitnessStackItem.fromBytes bitcoinMain [0]', 'r.bytes = [0]')
    stack = '[' + ', '.join(b(y) for y in st) + ']'
    F.let('wit', 'Py InputWitness', f'do InputWitness.make (← mapPy WitnessStackItem.make {stack})')
    F.ok('wit', f'r.stack.map (·.item) = {stack}', f'r.bytes = {b(W["ser"]["tx"]["witness"])}')
    F.ok(f'InputWitness.fromBytes bitcoinMain {b(W["ser"]["tx"]["witness"])}', f'r.stack.map (·.item) = {stack}')
    F.note('test_tx.py:325-470, `Tx`')
    F.let('outs1', 'Py (List TxOut)', f'do .ok [← TxOut.make {b(p["outs"][0]["value"])} {b(p["outs"][0]["pk_script"])}, ← TxOut.make {b(p["outs"][1]["value"])} {b(p["outs"][1]["pk_script"])}]')
    v, lt = b(p['version']), b(p['locktime'])
    F.let('t1', 'Env → Py Tx', f'fun E => do Tx.make E {v} none [← i1] (← outs1) none {lt}')
    F.ok('t1 btc', f'r.bytes = {b(p["tx"]["signed"])}', f'r.txId = {b(p["tx"]["hash"])}', f'r.txIdLe = {b(p["tx"]["hash_le"])}',
         f'r.calculateFee [{10 ** 8}] = 57534406', 'r.isWitness = false', 'r.copy btc = .ok r')
    F.ok('do .ok (← t1 btc).sighashNone', 'fails r .notImplementedError = true')
    F.err(f'do Tx.make btc {v} (some [0, 0]) [← i1] (← outs1) none {lt}')
    F.err(f'do Tx.make btc {v} none [← i1] (← outs1) (some [← wit]) {lt}')
    F.err(f'do Tx.make btc {v} (some [0, 1]) [← i1] (← outs1) (some [← wit, ← wit]) {lt}')
    F.err(f'do Tx.make btc {v} none [] (← outs1) none {lt}')
    # test_everything
    txid = bytes.fromhex('10399b3f20cbdd4b5ac3f823afdba28b9f70e21437a59b312a1b62c42c5cd101')[::-1]
    raw = H['RAW_P2SH_TO_P2PKH']
    sig = raw[4 + 1 + 36 + 1:]
    sig = sig[:raw[41]]
    pk = bytes.fromhex('76a914f2539f42058da784a9d54615ad074436cf3eb85188ac')
    F.ok(f'do Tx.make btc (hx 4 0x01000000) none [← TxIn.make (← Outpoint.make {b(txid)} [0, 0, 0, 0]) {b(sig)} [] [0, 0, 0, 0]] [← TxOut.make (hx 8 0xd007000000000000) {b(pk)}] none [0, 0, 0, 0]',
         f'r.bytes = {b(raw)}')
    F.ok(f'do Tx.make btc [0, 0, 0, 0] (some [0, 1]) [← TxIn.make (← Outpoint.make {b(txid)} [0, 0, 0, 0]) {b(sig)} [] [0, 0, 0, 0]] [← TxOut.make (hx 8 0xd007000000000000) {b(pk)}]'
         f' (some [← InputWitness.make [← WitnessStackItem.make (List.replicate 18 0x88), ← WitnessStackItem.make (List.replicate 18 0x99)]]) [0xff, 0xff, 0xff, 0xff]', 'r.isWitness = true')
    F.note('test_tx.py:480-600, reading transactions')
    for T, ins, out in [(P, [p['tx']['in']], 'out'), (S, [S['ser']['ins'][0]['input']], 'output'), (W, [W['ser']['ins'][0]['input']], 'output')]:
        z = T['ser']
        conds = [f'r.version = {b(z["version"])}', f'r.txIns.map (·.bytes) = [{b(ins[0])}]',
                 'r.txOuts.map (·.bytes) = [' + ', '.join(b(q[out]) for q in z['outs']) + ']',
                 f'r.lockTime = {b(z["locktime"])}', f'r.bytes = {b(z["tx"]["signed"])}']
        if T is W:
            conds.append(f'(r.txWitnesses.getD []).map (·.bytes) = [{b(z["tx"]["witness"])}]')
            conds.append('r.isWitness = true')
        F.ok(f'Tx.fromHex btc {s(T["human"]["tx"]["signed"])}', *conds)
        F.ok(f'Tx.fromBytes btc {b(z["tx"]["signed"])}', *conds)
    F.note('test_tx.py:640-800, signature hashes')
    z = WP['ser']
    pin = z['ins'][0]
    for f, a, k in [('All', 'false', 'all'), ('All', 'true', 'all_anyonecanpay'), ('Single', 'false', 'single'), ('Single', 'true', 'single_anyonecanpay')]:
        F.eq(f'(do (← Tx.fromBytes btc {b(z["tx"]["signed"])}).sighash{f} btc 0 {b(pin["pk_script"])} (some {b(pin["value"])}) {a})', f'.ok {b(z["segwit_sighash"][k])}')
        F.eq(f'(do (← t1 btc).sighash{f} btc 0 {b(n["pk_script"])} none {a})', f'.ok {b(p["sighash"][k])}')
        F.eq(f'(do (← t1 bch).sighash{f} bch 0 {b(n["pk_script"])} (some {b(n["value"])}) {a})', f'.ok {b(H["SIGHASH_FORKID"][k.replace("anyonecanpay", "anyone_can_pay")])}')
    F.err(f'do (← Tx.make btc {v} none [← i1, ← i1, ← i1] (← outs1) none {lt}).sighashSingle btc 2 {b(n["pk_script"])}', 'notImplementedError')
    F.write()


def builder():
    F = File('Builder', 'tests/tx/test_tx_builder.py and tests/test_simple.py.', ['Vectors.Basic', 'Model.Builder'])
    F.lines.append('open Builder\n')
    P, W, WP, K, I = H['P2PKH1'], H['P2WSH'], H['P2WPKH'], H['PK']['ser'][0], H['OP_IF']
    ws, wpk = W['human']['witnesses'][0]['wit_script'], W['ser']['ins'][0]['pk_script']
    F.note('test_tx_builder.py')
    F.eq('Addresses.makeShOutputScript btc (pystr "OP_IF")', f'.ok {b(I["output_script"])}')
    F.eq(f'Addresses.makeShOutputScript btc {s(ws)} true', f'.ok {b(wpk)}')
    F.err(f'Addresses.makeShOutputScript bch {s(ws)} true')
    F.eq(f'Addresses.makePkhOutputScript btc {b(K["pk"])}', f'.ok {b(K["pkh_output"])}')
    F.eq(f'Addresses.makePkhOutputScript btc {b(K["pk"])} true', f'.ok {b(K["pkh_p2wpkh_output"])}')
    F.err(f'Addresses.makePkhOutputScript bch {b(K["pk"])} true')
    F.eq('Addresses.makeP2shOutputScript btc (pystr "OP_IF")', f'.ok {b(I["output_script"])}')
    F.eq(f'Addresses.makeP2pkhOutputScript btc {b(K["pk"])}', f'.ok {b(K["pkh_output"])}')
    F.eq(f'Addresses.makeP2wshOutputScript btc {s(ws)}', f'.ok {b(wpk)}')
    F.eq(f'Addresses.makeP2wpkhOutputScript btc {b(K["pk"])}', f'.ok {b(K["pkh_p2wpkh_output"])}')
    val = P['human']['outs'][0]['value']
    F.ok(f'makeP2shOutput btc {val} (pystr "OP_IF")', f'outBytes r = {b(I["output"])}')
    F.ok(f'makeP2wshOutput btc {W["human"]["outs"][3]["value"]} {s(ws)}', f'outBytes r = {b(W["ser"]["outs"][3]["output"])}')
    F.ok(f'makeP2pkhOutput btc {val} {b(K["pk"])}', f'outBytes r = {b(K["pk_p2pkh_output"])}')
    F.ok(f'makeP2wpkhOutput btc {val} {b(K["pk"])}', f'outBytes r = {b(K["pk_p2wpkh_output"])}')
    F.err('makeOpReturnOutput btc (List.replicate 78 0)')
    n, hn = P['ser']['ins'][0], P['human']['ins'][0]
    F.ok(f'makeOutpoint btc {b(n["hash"])} {hn["index"]}', f'outpointBytes r = {b(n["outpoint"])}')
    q = H['P2SH_PD1']
    F.eq(f'makeScriptSig btc {s(q["human"]["ins"][0]["stack_script"])} {s(q["human"]["ins"][0]["redeem_script"])}', f'.ok {b(q["ser"]["ins"][0]["script_sig"])}')
    F.ok(f'do makeAnyLegacyInput btc (← makeOutpoint btc {b(n["hash"])} {hn["index"]}) {b(n["stack_script"])} {b(n["redeem_script"])} {hn["sequence"]}',
         f'inBytes r = {b(P["ser"]["tx"]["in"])}')
    for k, w in [(1, '[1, 0]'), (99, '0x63 :: List.replicate 99 0'), (256, '0xfd :: 0 :: 1 :: List.replicate 256 0')]:
        F.eq(f'lengthPrepend (List.replicate {k} 0)', f'.ok ({w})')
    F.note('test_simple.py')
    for h, w in zip(W['human']['outs'], W['ser']['outs']):
        F.ok(f'Simple.output btc {h["value"]} {s(h["addr"])}', f'outBytes r = {b(w["output"])}')
    T = H['P2PKH']
    th, ts = T['human']['ins'][0], T['ser']['ins'][0]
    F.let('so', 'Py AnyOutpoint', f'Simple.outpoint btc {s(th["hash"])} {th["index"]}')
    F.ok('so', f'outpointBytes r = {b(ts["outpoint"])}')
    F.ok('do Simple.unsignedInput btc (← so)', f'inBytes r = {b(ts["outpoint"] + bytes.fromhex("00feffffff"))}')
    F.ok(f'do Simple.unsignedInput btc (← so) {0x1234abcd}', f'inBytes r = {b(ts["outpoint"] + bytes.fromhex("00cdab3412"))}')
    oh = T['human']['outs']
    F.ok(f'do Simple.unsignedLegacyTx btc [← stdIn (Simple.unsignedInput btc (← so) {th["sequence"]})] [← stdOut (Simple.output btc {oh[0]["value"]} {s(oh[0]["addr"])}), ← stdOut (makeOpReturnOutput btc {b(oh[1]["memo"])})]',
         f'txBytes r = {b(T["ser"]["tx"]["unsigned"])}')
    T = WP
    th = T['human']['ins'][0]
    oh = T['human']['outs']
    F.ok(f'do Simple.unsignedWitnessTx btc [← stdIn (Simple.unsignedInput btc (← Simple.outpoint btc {s(th["hash"])} {th["index"]}) {th["sequence"]})] [← stdOut (Simple.output btc {oh[0]["value"]} {s(oh[0]["addr"])})] {{ lockTime := some {T["human"]["locktime"]} }}',
         f'txBytes r = {b(T["ser"]["tx"]["unsigned"])}')
    F.write()


def sprout():
    F = File('Sprout', 'tests/tx/test_sprout.py and test_overwinter.py.', ['Vectors.Basic', 'Model.Sprout', 'Model.Overwinter'])
    Z = OW['ZCASH_SPROUT']['ser']
    J = Z['joinsplits'][0]
    K = J['zkproof']
    order = ['pi_sub_a', 'pi_prime_sub_a', 'pi_sub_b', 'pi_prime_sub_b', 'pi_sub_c', 'pi_prime_sub_c', 'pi_sub_k', 'pi_sub_h']

    def zk(d, net='zcashSproutMain'):
        return f'SproutZkproof.make {net} ' + ' '.join(b(d[k]) for k in order)
    F.note('test_sprout.py:33-68')
    F.let('proof', 'Network → Py SproutZkproof', f'fun n => SproutZkproof.fromBytes n {b(J["proof"])}')
    F.ok(zk(K), f'r.bytes = {b(J["proof"])}')
    F.ok('proof zcashSproutMain', f'r.bytes = {b(J["proof"])}')
    F.err('proof bitcoinMain')
    for k in order:
        F.err(zk({**K, k: b''}))
    F.note('test_sprout.py:71-115')
    pre = ['vpub_old', 'vpub_new', 'anchor', 'nullifiers', 'commitments', 'ephemeral_key', 'random_seed', 'vmacs']

    def js(d):
        return 'do SproutJoinsplit.make zcashSproutMain ' + ' '.join(b(d[k]) for k in pre) + f' (← proof zcashSproutMain) {b(d["encoded_notes"])}'
    F.let('js0', 'Network → Py SproutJoinsplit', f'fun n => SproutJoinsplit.fromBytes n {b(Z["joinsplit_0"])}')
    F.ok(js(J), f'r.bytes = {b(Z["joinsplit_0"])}')
    F.ok('js0 zcashSproutMain', f'r.bytes = {b(Z["joinsplit_0"])}')
    for k in pre + ['encoded_notes']:
        F.err(js({**J, k: b''}))
    F.err(js({**J, 'vpub_old': b'\xff' * 8}))
    F.note('test_sprout.py:118-240')
    F.let('zout', 'Py TxOut', f'TxOut.fromBytes zcashSproutMain {b(Z["tx_out_0"])}')

    def t(ins='[]', outs='[← zout]', js='[← js0 zcashSproutMain]', **kw):
        d = {**Z, **kw}
        return f'do SproutTx.make spr {b(d["version"])} {ins} {outs} {b(d["lock_time"])} (some {js}) (some {b(d["joinsplit_pubkey"])}) (some {b(d["joinsplit_sig"])})'
    F.let('zt', 'Py SproutTx', t())
    F.ok(f'SproutTx.fromBytes spr {b(Z["tx"])}', f'r.bytes = {b(Z["tx"])}')
    le = bytes.fromhex('1add6cdbe72ede27cd3b6cd85f45d02081b9d57f173090df80648cdb927eb167')
    F.ok('zt', f'r.bytes = {b(Z["tx"])}', f'r.txIdLe = {b(le)}', f'r.txId = {b(le[::-1])}', 'r.calculateFee [] = 10000')
    F.err(t(version=b''))
    F.err(t(lock_time=b''))
    F.err(t(version=b'\x01\x00\x00\x00'))
    F.err(t(version=b'\x04\x00\x00\x00'))
    F.err(t(js='(List.replicate 6 (← js0 zcashSproutMain))'))
    F.err(t(joinsplit_pubkey=b''))
    F.err(t(joinsplit_sig=b'\x00'))
    F.err(t(version=b'\x01\x00\x00\x00', js='[]'))
    x = H['P2SH']['ser']['ins'][0]['input']
    y = Z['tx'][:4] + bytes([1]) + x + Z['tx'][5:]
    F.ok(f'SproutTx.fromBytes spr {b(y)}', f'r.bytes = {b(y)}')
    F.ok(t(ins=f'[← TxIn.fromBytes zcashSproutMain {b(x)}]'), f'r.bytes = {b(y)}')
    F.note('test_overwinter.py:20-110')

    def o(ins='[]', js='[← js0 zcashOverwinterMain]', E='ovw', expiry_height=Z['lock_time'], **kw):
        d = {**Z, **kw}
        return f'do OverwinterTx.make {E} {ins} [← zout] {b(d["lock_time"])} {b(expiry_height)} {js} (some {b(d["joinsplit_pubkey"])}) (some {b(d["joinsplit_sig"])})'
    F.ok(o(), 'r.calculateFee [] = 10000')
    F.err(o(lock_time=b''))
    F.err(o(expiry_height=b''))
    F.err(o(expiry_height=b'\xff' * 4))
    F.err(o(js='(List.replicate 6 (← js0 zcashOverwinterMain))'))
    F.err(o(js='[]'))
    F.err(o(joinsplit_pubkey=b''))
    F.err(o(joinsplit_sig=b'\x00'))
    F.err(o(E='spr', js='[]'))
    F.ok(f'OverwinterTx.fromBytes ovw {b(OW["ZCASH_OVERWINTER_NO_JS"]["ser"]["tx"])}', f'r.bytes = {b(OW["ZCASH_OVERWINTER_NO_JS"]["ser"]["tx"])}')
    for k in ('RAW_NO_JS', 'RAW_TWO'):
        F.ok(f'OverwinterTx.fromBytes ovw {b(OW[k])}', f'r.bytes = {b(OW[k])}')
    F.note('test_overwinter.py:113-150, the vector of ZIP 143')
    F.let('rawTx', 'Py OverwinterTx', f'OverwinterTx.fromBytes ovw {b(OW["RAW_TX"])}')
    F.ok('rawTx', f'r.hashPrevouts ovw false = {b(OW["HASH_PREVOUTS"])}', f'r.hashOutputs ovw SIGHASH_SINGLE 1 = .ok {b(OW["HASH_OUTPUTS"])}',
         f'r.hashJoinsplits ovw = .ok {b(OW["HASH_JOINSPLITS"])}',
         f'r.sighashSingle ovw {b(OW["PREVOUT_VALUE"])} {b(OW["SCRIPT_CODE"])} 1 = .ok {b(OW["SIGHASH"])}')
    F.write()


def hexb(x):
    return x if isinstance(x, bytes) else bytes.fromhex(x)


def sapling():
    F = File('Sapling', 'tests/tx/test_sapling.py.', ['Vectors.Basic', 'Model.Sapling'])
    N = 'zcashSaplingMain'
    T0 = SAP['TXNS'][0]
    F.note('test_sapling.py:30-75, shielded spends')

    def zk(x, n=N):
        return f'(← SaplingZkproof.fromBytes {n} {b(x)})'
    fs = ['cv', 'anchor', 'nullifier', 'rk']
    names = {'cv': 'cv', 'anchor': 'anchor', 'nullifier': 'nullifier', 'rk': 'rk', 'spend_auth_sig': 'spendAuthSig', 'cmu': 'cmu',
             'ephemeral_key': 'ephemeralKey', 'enc_ciphertext': 'encCiphertext', 'out_ciphertext': 'outCiphertext', 'vpub_old': 'vpubOld',
             'vpub_new': 'vpubNew', 'nullifiers': 'nullifiers', 'commitments': 'commitments', 'random_seed': 'randomSeed', 'vmacs': 'vmacs',
             'encoded_notes': 'encodedNotes'}

    def fields(d, ks):
        return [f'r.{names[k]} = {b(hexb(d[k]))}' for k in ks] + [f'r.zkproof.bytes = {b(hexb(d["zkproof"]))}']
    for d in T0['vShieldedSpend']:
        F.ok(f'SaplingShieldedSpend.fromBytes {N} {b(hexb(d["full"]))}', *fields(d, fs + ['spend_auth_sig']))
    d = {k: hexb(v) for k, v in T0['vShieldedSpend'][0].items()}

    def spend(d):
        return f'do SaplingShieldedSpend.make {N} ' + ' '.join(b(d[k]) for k in fs) + f' {zk(d["zkproof"])} {b(d["spend_auth_sig"])}'
    F.ok(spend(d), f'r.bytes = {b(d["full"])}')
    for k in fs + ['spend_auth_sig']:
        F.err(spend({**d, k: b''}))
    F.note('test_sapling.py:78-115, shielded outputs')
    os_ = ['cv', 'cmu', 'ephemeral_key', 'enc_ciphertext', 'out_ciphertext']
    for d in T0['vShieldedOutput']:
        F.ok(f'SaplingShieldedOutput.fromBytes {N} {b(hexb(d["full"]))}', *fields(d, os_))
    d = {k: hexb(v) for k, v in T0['vShieldedOutput'][0].items()}

    def out(d):
        return f'do SaplingShieldedOutput.make {N} ' + ' '.join(b(d[k]) for k in os_) + f' {zk(d["zkproof"])}'
    F.ok(out(d), f'r.bytes = {b(d["full"])}')
    for k in os_:
        F.err(out({**d, k: b''}))
    F.note('test_sapling.py:118-142, proofs')
    Z = SAP['ZKPROOF']
    F.ok(f'SaplingZkproof.fromBytes {N} {b(hexb(Z["full"]))}', f'r.piSubA = {b(hexb(Z["pi_sub_a"]))}', f'r.piSubB = {b(hexb(Z["pi_sub_b"]))}', f'r.piSubC = {b(hexb(Z["pi_sub_c"]))}')
    F.note('test_sapling.py:145-205, joinsplits')
    jf = ['vpub_old', 'vpub_new', 'anchor', 'nullifiers', 'commitments', 'ephemeral_key', 'random_seed', 'vmacs']
    for d in T0['vJoinsplits']:
        F.ok(f'SaplingJoinsplit.fromBytes {N} {b(hexb(d["full"]))}', *fields(d, jf + ['encoded_notes']))
    d = {k: hexb(v) for k, v in T0['vJoinsplits'][0].items()}

    def js(d):
        return f'do SaplingJoinsplit.make {N} ' + ' '.join(b(d[k]) for k in jf) + f' {zk(d["zkproof"])} {b(d["encoded_notes"])}'
    F.ok(js(d), f'r.bytes = {b(d["full"])}')
    for k in jf + ['encoded_notes']:
        F.err(js({**d, k: b''}))
    F.err(js({**d, 'vpub_old': b'\xff' * 8, 'vpub_new': b'\xff' * 8}))
    F.note('test_sapling.py:208-300, transactions')
    D = SAP['TX_DICT']

    def lst(cls, xs, n=N):
        return '[' + ', '.join(f'← {cls}.fromBytes {n} {b(x)}' for x in xs) + ']'

    def opt(x):
        return 'none' if x is None else f'(some {b(x)})'
    F.let('dIns', 'Py (List TxIn)', 'do .ok ' + lst('TxIn', D['tx_ins']))
    F.let('dOuts', 'Py (List TxOut)', 'do .ok ' + lst('TxOut', D['tx_outs']))
    F.let('dSpends', 'Py (List SaplingShieldedSpend)', 'do .ok ' + lst('SaplingShieldedSpend', D['tx_shielded_spends']))
    F.let('dShOuts', 'Py (List SaplingShieldedOutput)', 'do .ok ' + lst('SaplingShieldedOutput', D['tx_shielded_outputs']))
    F.let('dJs', 'Py (List SaplingJoinsplit)', 'do .ok ' + lst('SaplingJoinsplit', D['tx_joinsplits']))

    def t(E='sap', ins='(← dIns)', outs='(← dOuts)', spends='(← dSpends)', shouts='(← dShOuts)', js='(← dJs)', **kw):
        d = {**D, **kw}
        return (f'do SaplingTx.make {E} {ins} {outs} {b(d["lock_time"])} {b(d["expiry_height"])} {b(d["value_balance"])} {spends} {shouts} {js} '
                f'{opt(d["joinsplit_pubkey"])} {opt(d["joinsplit_sig"])} {opt(d["binding_sig"])}')
    F.ok(t(), f'r.bytes = {b(hexb(T0["hex"]))}')
    for T in SAP['TXNS']:
        F.ok(f'SaplingTx.fromBytes sap {b(hexb(T["hex"]))}', f'r.bytes = {b(hexb(T["hex"]))}', f'r.bindingSig = some {b(hexb(T["bindingSig"]))}',
             f'le2i r.expiryHeight = {T["expiryHeight"]}',
             'r.txShieldedSpends.map (fun x => [x.cv, x.anchor, x.nullifier, x.zkproof.bytes, x.spendAuthSig]) = ['
             + ', '.join('[' + ', '.join(b(hexb(q[k])) for k in ('cv', 'anchor', 'nullifier', 'zkproof', 'spend_auth_sig')) + ']' for q in T['vShieldedSpend']) + ']')
    F.err(t(E='spr'))
    F.err(t(value_balance=b'\x01' * 8, spends='[]', shouts='[]'))
    F.err(t(ins='[]', spends='[]', js='[]'))
    for k in ('lock_time', 'expiry_height', 'value_balance', 'binding_sig', 'joinsplit_pubkey', 'joinsplit_sig'):
        F.err(t(**{k: b''}))
    F.err(t(expiry_height=b'\xff' * 4))
    F.err(t(js='(List.replicate 6 (← getItem (← dJs) 0))'))
    F.note('test_sapling.py:303-345, the vectors of ZIP 243')
    for T in SAP['SIGHASH']:
        ix = 0 if T['index'] is None else T['index']
        ty = T['sighash_type']
        acp = str(T['anyone_can_pay']).lower()
        F.ok(f'SaplingTx.fromBytes sap {b(hexb(T["hex"]))}', f'r.hashPrevouts sap false = {b(hexb(T["hashPrevouts"]))}',
             f'r.hashSequence sap {ty} false = {b(hexb(T["hashSequence"]))}', f'r.hashOutputs sap {ty} {ix} = .ok {b(hexb(T["hashOutputs"]))}',
             f'r.hashJoinsplits sap = .ok {b(hexb(T["hashJoinSplits"]))}', f'r.hashShieldedSpends sap = {b(hexb(T["hashShieldedSpends"]))}',
             f'r.hashShieldedOutputs sap = {b(hexb(T["hashShieldedOutputs"]))}',
             f'r.sighash sap {ty} {b(hexb(T["amount"]))} {ix} {str(T["joinsplit"]).lower()} (some {b(hexb(T["script_code"]))}) {acp} = .ok {b(hexb(T["sighash"]))}')
    F.write()


def decred():
    F = File('Decred', 'tests/tx/test_decred.py.', ['Vectors.Basic', 'Model.Builder'])
    F.lines.append('open Builder\n')
    N = 'decredMain'
    S, Hu = DCR['DCR']['ser'], DCR['DCR']['human']
    n, o, w = S['ins'][0], S['outs'][0], S['witnesses'][0]
    F.note('test_decred.py:20-120')
    F.ok(f'do Simple.unsignedInput dcr (← Simple.outpoint dcr {s(Hu["ins"][0]["hash"])} {Hu["ins"][0]["index"]} (some {Hu["ins"][0]["tree"]})) {Hu["ins"][0]["sequence"]}', f'inBytes r = {b(S["tx"]["in_unsigned"])}')
    F.let('do1', 'Py DecredOutpoint', f'DecredOutpoint.make {N} {b(n["hash"])} {b(n["index"])} {b(n["tree"])}')
    F.ok('do1', f'r.bytes = {b(n["outpoint"])}', f'r.copy {N} = .ok r', f'DecredOutpoint.fromBytes {N} r.bytes = .ok r')
    F.err(f'DecredOutpoint.make {N} [0xff] {b(n["index"])} {b(n["tree"])}')
    F.err(f'DecredOutpoint.make {N} (List.replicate 74 0x30) {b(n["index"])} {b(n["tree"])}')
    F.err(f'DecredOutpoint.make {N} {b(n["hash"])} [0] {b(n["tree"])}')
    F.err(f'DecredOutpoint.make bitcoinMain {b(n["hash"])} {b(n["index"])} {b(n["tree"])}')
    F.let('di1', 'Py DecredTxIn', f'do DecredTxIn.make {N} (← do1) {b(n["sequence"])}')
    F.ok('di1', f'r.bytes = {b(S["tx"]["in_unsigned"])}', f'r.copy {N} = .ok r', f'DecredTxIn.fromBytes {N} r.bytes = .ok r')
    F.let('dx1', 'Py DecredTxOut', f'DecredTxOut.make {N} {b(o["value"])} {b(o["version"])} {b(o["pk_script"])}')
    F.ok('dx1', f'r.bytes = {b(o["output"])}', f'r.copy {N} = .ok r', f'DecredTxOut.fromBytes {N} r.bytes = .ok r')
    F.err(f'DecredTxOut.fromBytes {N} (List.replicate 1000 0xff)', 'notImplementedError')
    F.note('test_decred.py:215-400')
    wk = ['value', 'height', 'index', 'stack_script', 'redeem_script']
    F.let('dw1', 'Py DecredInputWitness', f'DecredInputWitness.make {N} ' + ' '.join(b(w[k]) for k in wk))
    F.ok('dw1', f'r.bytes = {b(w["witness"])}', f'r.copy {N} = .ok r')

    def t(ins='[← di1]', outs='[← dx1]', wits='[← dw1]'):
        return f'do DecredTx.make {N} {b(S["version"])} {ins} {outs} {b(S["locktime"])} {b(S["expiry"])} {wits}'
    F.let('dt1', 'Py DecredTx', t())
    F.ok('dt1', f'r.bytes = {b(S["tx"]["p2sh_2_p2pkh"])}', f'r.txId = {b(S["tx"]["hash"])}', f'r.txIdLe = {b(S["tx"]["hash_le"])}',
         'r.calculateFee = 33400', f'r.witness {N} = .ok {b(bytes.fromhex("0100020001") + w["witness"])}', f'r.witnessHash {N} = .ok {b(w["hash"])}',
         f'r.copy {N} = .ok r', 'r.sighashNone = .error .notImplementedError')
    F.err(t(ins='[]', wits='[]'))
    F.note('test_decred.py:515-545, the vector of dcrd')
    F.ok(f'do DecredTx.make {N} {b(S["version"])} [← DecredTxIn.make {N} (← DecredOutpoint.make {N} (List.replicate 32 0) (List.replicate 4 0xff) [0]) (List.replicate 4 0xff)] '
         f'[← DecredTxOut.make {N} (← i2lePadded 5000000000 8) [0xf0, 0xf0] {b(S["hash_pk"])}] [0, 0, 0, 0] [0, 0, 0, 0] '
         f'[← DecredInputWitness.make {N} (← i2lePadded 5000000000 8) (List.replicate 4 0x34) (List.replicate 4 0x2e) [0x04, 0x31, 0xdc, 0x00, 0x1b, 0x01, 0x62] []]',
         f'r.txId = {b(S["tx"]["expected_hash"])}')
    F.note('test_decred.py:547-610')
    S1 = DCR['DCR1']['ser']
    ws = ', '.join(f'← DecredInputWitness.make {N} {b(x["value"])} {b(x["height"])} {b(x["index"])} {b(x["stack_script"])} []' for x in S1['witness'])
    F.ok(f'do DecredTx.make {N} {b(S1["version"])} [' + ', '.join(f'← DecredTxIn.fromBytes {N} {b(x["in"])}' for x in S1['ins'])
         + '] [' + ', '.join(f'← DecredTxOut.fromBytes {N} {b(x["output"])}' for x in S1['outs']) + f'] {b(S1["locktime"])} {b(S1["expiry"])} [{ws}]',
         'r.txIns.map (·.bytes) = [' + ', '.join(b(x['in']) for x in S1['ins']) + ']', 'r.txOuts.map (·.bytes) = [' + ', '.join(b(x['output']) for x in S1['outs']) + ']')
    F.note('test_decred.py:640-700, the builder')
    F.ok(f'makeOutput dcr {b(o["value"])} {b(o["pk_script"])} (some {b(o["version"])})', f'outBytes r = {b(o["output"])}')
    F.ok(f'makeDecredWitness dcr ' + ' '.join(b(w[k]) for k in wk), f'r.bytes = {b(w["witness"])}')
    F.ok(f'makeOutpoint dcr {b(n["hash"])} 0 (some 0)', f'outpointBytes r = {b(n["outpoint"])}')
    F.ok(f'do makeAnyLegacyInput dcr (← makeOutpoint dcr {b(n["hash"])} 0 (some 0)) [] [] {Hu["ins"][0]["sequence"]}', f'inBytes r = {b(S["tx"]["in_unsigned"])}')
    F.write()


for f in (utils, script, encoding, tx, builder, sprout, sapling, decred):
    f()
