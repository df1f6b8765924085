{"id": "C01", "title": "Fixed-width little-endian integers round-trip exactly or overflow", "statement": "utils.i2le_padded(n, k) succeeds exactly when 0 <= n < 256**k; its result has length k and le2i of it is n. Outside that range it raises OverflowError. For every byte string b, le2i(b) < 256**len(b) and i2le_padded(le2i(b), len(b)) == b.", "quantifier": "every integer n (negative included), every length k, every byte string b", "why_tests_cant": "Tests check a handful of integers; carries, boundaries 256**k-1 / 256**k and every width need an inductive argument.", "anchors": ["riemann/utils.py:i2le_padded", "riemann/utils.py:le2i"]}
{"id": "C02", "title": "Fixed-width big-endian integers round-trip and mirror the little-endian ones", "statement": "utils.i2be_padded(n, k) succeeds exactly when 0 <= n < 256**k, is the byte reversal (change_endianness) of i2le_padded(n, k), and be2i inverts it; change_endianness is an involution.", "quantifier": "every integer n, length k and byte string b", "why_tests_cant": "The relation between the two byte orders must hold for all lengths and values.", "anchors": ["riemann/utils.py:i2be_padded", "riemann/utils.py:be2i", "riemann/utils.py:change_endianness"]}
{"id": "C03", "title": "Minimal-length integers are minimal and lossless", "statement": "utils.i2le(n) and i2be(n) for n >= 0 decode back to n, are b'\\x00' for 0, and otherwise carry no superfluous zero byte (no shorter byte string decodes to n); a negative n raises OverflowError.", "quantifier": "every integer n", "why_tests_cant": "Minimality quantifies over all shorter byte strings; bit_length rounding has a boundary at each power of 256.", "anchors": ["riemann/utils.py:i2le", "riemann/utils.py:i2be"]}
{"id": "C04", "title": "Script integers decode back to the number", "statement": "For every integer n that fits 519 signed bytes, i2le_script(n) is the hex of a shortest two's-complement little-endian string whose signed le2i is n; other n raise ValueError. (The code violates this at n = -1, where it returns the empty string.)", "quantifier": "every integer n", "why_tests_cant": "The loop tries up to 520 lengths and the -1 corner is only found by considering every integer.", "anchors": ["riemann/utils.py:i2le_script", "riemann/utils.py:le2i"]}
{"id": "C05", "title": "Positive script integers agree with Bitcoin's script-number encoding", "statement": "For n > 0, i2le_script(n) is the hex of Bitcoin's minimal sign-magnitude script number for n. (Because the code uses two's complement, for n <= 0 it differs from Bitcoin's encoding except at n = -64*256**j.)", "quantifier": "every integer n", "why_tests_cant": "Agreement of two encodings over unbounded integers.", "anchors": ["riemann/utils.py:i2le_script"]}
{"id": "C06", "title": "VarInt writes Bitcoin's CompactSize", "statement": "VarInt(n) for 0 <= n < 2**64 has the bytes of the CompactSize encoding (1, 3, 5 or 9 bytes by range), number == n; any other n raises ValueError. Two VarInts with one a prefix of the other are equal (prefix-free).", "quantifier": "every integer n; every pair of numbers", "why_tests_cant": "2**64 values and the four range boundaries; prefix-freedom quantifies over pairs.", "anchors": ["riemann/tx/shared.py:VarInt.__init__"]}
{"id": "C07", "title": "VarInt.from_bytes inverts VarInt, whatever follows", "statement": "On every network other than Zcash Overwinter and Sapling, VarInt.from_bytes(VarInt(n).to_bytes() + rest) returns a VarInt with number n and the same bytes, for every rest.", "quantifier": "every n < 2**64, every trailing byte string, every network without the compactness rule", "why_tests_cant": "2**64 numbers times all suffixes; the flag non_compact is set for some compact encodings (253..255).", "anchors": ["riemann/tx/shared.py:VarInt.from_bytes"]}
{"id": "C08", "title": "Zcash networks accept exactly the compact VarInts", "statement": "On Zcash Overwinter and Sapling networks VarInt.from_bytes accepts the CompactSize encoding of every number and rejects every non-compact one with ValueError. (The code violates the first half exactly for 253, 254 and 255; rejection of every non-compact encoding holds for the 0xfe and 0xff forms and for all 0xfd forms.)", "quantifier": "every byte string, every Overwinter/Sapling network", "why_tests_cant": "The wrongly rejected values are three out of 2**64.", "anchors": ["riemann/tx/shared.py:VarInt.from_bytes"]}
{"id": "C09", "title": "A parsed VarInt occupies the bytes it was parsed from", "statement": "If VarInt.from_bytes(b) succeeds, then the returned object's bytes are a prefix of b (callers advance their cursor by len() of it). (Violated for non-compact encodings: fe00010000 parses to a 3-byte object.)", "quantifier": "every byte string", "why_tests_cant": "Non-compact encodings are a sparse set; the parser's cursor depends on the length for all of them.", "anchors": ["riemann/tx/shared.py:VarInt.from_bytes", "riemann/tx/shared.py:VarInt.__init__"]}
{"id": "C10", "title": "Deserializing a serialized script gives the same script back", "statement": "For every sequence of canonical tokens (opcode names as deserialize prints them, and non-empty lowercase hex strings of at most 1000 bytes), deserialize(serialize(' '.join(tokens))) == ' '.join(tokens), on every network; extra whitespace between tokens does not matter.", "quantifier": "every token sequence of any length, every network", "why_tests_cant": "Scripts are unbounded; the push-length boundaries 75/76/255/256/1000 interact with the position in the script.", "anchors": ["riemann/script/serialization.py:serialize", "riemann/script/serialization.py:deserialize", "riemann/script/opcodes.py"]}
{"id": "C11", "title": "Serializing a deserialized script gives the same bytes back", "statement": "For every byte string made of minimal pushes and named opcodes, serialize(deserialize(b)) == b. Non-minimal pushes are the only deserializable scripts that change. (For arbitrary b the equality is false: 4c0101 becomes 0101.)", "quantifier": "every byte string accepted by deserialize", "why_tests_cant": "Parsing loop over unbounded input.", "anchors": ["riemann/script/serialization.py:serialize", "riemann/script/serialization.py:deserialize"]}
{"id": "C12", "title": "Serialized data pushes are minimal and bounded", "statement": "A hex token of m bytes serializes to a direct push for 1 <= m <= 75, OP_PUSHDATA1 for 76..255, OP_PUSHDATA2 (2-byte LE length) for 256..1000, and raises NotImplementedError above 1000; serialize is a homomorphism: serializing a concatenation of token lists is the concatenation of the serializations.", "quantifier": "every token and every script", "why_tests_cant": "All lengths and contexts.", "anchors": ["riemann/script/serialization.py:serialize"]}
{"id": "C13", "title": "OP_CODESEPARATOR and OP_PUSHDATA4 never pass", "statement": "serialize raises for every script containing the token OP_CODESEPARATOR or OP_PUSHDATA4, and deserialize raises NotImplementedError whenever its cursor reaches byte 0xab or 0x4e, so no deserialized text contains them.", "quantifier": "every script text and byte string", "why_tests_cant": "Position of the token inside unbounded scripts.", "anchors": ["riemann/script/serialization.py:serialize", "riemann/script/serialization.py:deserialize"]}
{"id": "C14", "title": "Deserialize rejects scripts whose last push is truncated", "statement": "If deserialize(b) returns, every push in b has its full data present. (Holds for direct pushes; violated for OP_PUSHDATA1/2, e.g. 4c05aa deserializes to 'aa'.)", "quantifier": "every byte string", "why_tests_cant": "Unbounded scripts; only some push forms are checked.", "anchors": ["riemann/script/serialization.py:deserialize"]}
{"id": "C15", "title": "Opcode tables agree in both directions on every network", "statement": "On every supported network, every byte that deserialize maps to an opcode name is mapped back to that byte by serialize, including the Decred overrides, and OP_SHA256 is 0xc0 and OP_BLAKE256 0xa8 exactly on Decred.", "quantifier": "every byte and every supported network", "why_tests_cant": "Needs all 256 bytes on all 72 networks, two of the names sharing a byte.", "anchors": ["riemann/script/opcodes.py", "riemann/networks/networks.py", "riemann/script/serialization.py"]}
{"id": "C16", "title": "Base58 decode inverts encode", "statement": "base58.decode(base58.encode(d)) == d for every byte string d, with and without checksum, leading zero bytes included. encode_with_checksum(d) is the one base58 string of d followed by the first 4 bytes of hash256(d); decode_with_checksum inverts it and has_checksum is True for it.", "quantifier": "every byte string, both checksum modes, every hash function", "why_tests_cant": "Radix conversion of unbounded integers with leading-zero bookkeeping.", "anchors": ["riemann/encoding/base58.py:encode", "riemann/encoding/base58.py:decode", "riemann/encoding/base58.py:to_long", "riemann/encoding/base58.py:from_long", "riemann/encoding/base58.py:encode_with_checksum"]}
{"id": "C17", "title": "Base58 strings are canonical", "statement": "If base58.decode(s) succeeds, base58.encode of the result is s again: no two strings decode to the same bytes, with and without checksum.", "quantifier": "every string", "why_tests_cant": "All strings; leading '1' counting must be exact.", "anchors": ["riemann/encoding/base58.py:decode", "riemann/encoding/base58.py:encode"]}
{"id": "C18", "title": "Base58Check accepts exactly correctly hashed data and only raises ValueError", "statement": "decode(s) with checksum returns d exactly when s consists of base58 characters and its payload is d followed by the first 4 bytes of hash256(d); otherwise it raises ValueError and nothing else; has_checksum never raises and equals that condition.", "quantifier": "every string", "why_tests_cant": "Short payloads (under 4 bytes) and non-alphabet characters must be covered for all strings.", "anchors": ["riemann/encoding/base58.py:decode", "riemann/encoding/base58.py:has_checksum"]}
{"id": "C19", "title": "Bech32 checksums always verify", "statement": "For every HRP and every list of 5-bit values, the checksum bech32 creates makes verification succeed; with the right HRP, decoding an encoded string returns HRP and values (length limit respected).", "quantifier": "every HRP string and value list", "why_tests_cant": "Linear-code argument over GF(2); tests sample a few strings.", "anchors": ["riemann/encoding/bech32.py:bech32_create_checksum", "riemann/encoding/bech32.py:bech32_verify_checksum", "riemann/encoding/bech32.py:bech32_polymod"]}
{"id": "C20", "title": "Bech32 detects every one to four character substitutions", "statement": "Changing one character, at any position of the data part, of a valid bech32 string always makes verification fail (any length); changing one to four characters of the data part of a string of legal length (at most 90) also does; and changing one to four characters anywhere in an accepted address (human-readable part, separator and data part, other than by a change of case) makes decode raise.", "quantifier": "every valid string, every choice of positions, every replacement", "why_tests_cant": "31*n single errors and about 10^12 quadruple errors per string, for every string.", "anchors": ["riemann/encoding/bech32.py:bech32_polymod", "riemann/encoding/bech32.py:bech32_decode"]}
{"id": "C21", "title": "Segwit addresses round-trip", "statement": "On every network with a bech32 HRP, for every witness version 0..16 and program of 2..40 bytes (20 or 32 for version 0), bech32.encode([version, len] + program) is a string and bech32.decode returns exactly those bytes.", "quantifier": "every network with an HRP, every version and program", "why_tests_cant": "2**320 programs; bit regrouping 8->5->8 with padding.", "anchors": ["riemann/encoding/bech32.py:encode", "riemann/encoding/bech32.py:decode", "riemann/encoding/bech32.py:segwit_encode", "riemann/encoding/bech32.py:segwit_decode"]}
{"id": "C22", "title": "Accepted segwit addresses are canonical and case-consistent", "statement": "If bech32.decode(s) succeeds then s is all lower or all upper case, has the network's HRP, and re-encoding the result gives s in lower case: each witness program has exactly one lower-case address. Upper-casing an address does not change what it decodes to.", "quantifier": "every string and every network with an HRP", "why_tests_cant": "Requires rejecting every non-zero padding and mixed case over all strings.", "anchors": ["riemann/encoding/bech32.py:decode", "riemann/encoding/bech32.py:bech32_decode", "riemann/encoding/bech32.py:convertbits"]}
{"id": "C23", "title": "Bit regrouping is lossless and padding-strict", "statement": "convertbits(convertbits(d, 8, 5), 5, 8, False) == d for every byte string d, and if convertbits(v, 5, 8, False) returns d then convertbits(d, 8, 5) == v: non-zero or over-long padding is rejected. For any two widths f and t, convertbits(convertbits(d, f, t), t, f, False) == d exactly if the padding is shorter than f bits (always if t <= f).", "quantifier": "every byte list and every 5-bit list; every list of digits and every two widths", "why_tests_cant": "Accumulator invariant over unbounded lists.", "anchors": ["riemann/encoding/bech32.py:convertbits", "riemann/encoding/cashaddr.py:convertbits"]}
{"id": "C24", "title": "Cashaddr round-trips", "statement": "On every Bitcoin Cash network cashaddr.decode(cashaddr.encode(d)) == d for every payload d. (True exactly when len(d) is not a multiple of 5; for multiples of 5 the last byte is lost. The 21-byte address payloads are safe.)", "quantifier": "every byte string and every cashaddr network", "why_tests_cant": "The failing lengths follow from the padding arithmetic for all lengths.", "anchors": ["riemann/encoding/cashaddr.py:encode", "riemann/encoding/cashaddr.py:decode", "riemann/encoding/cashaddr.py:convertbits"]}
{"id": "C25", "title": "Cashaddr checksums verify and detect every one to four character errors", "statement": "The checksum cashaddr computes always verifies; replacing any one character of the payload of a valid cashaddr by another makes decode raise, and so does replacing two, three or four when the payload has at most 128 characters.", "quantifier": "every prefix, payload, choice of positions and replacement", "why_tests_cant": "40-bit BCH code over unbounded payloads.", "anchors": ["riemann/encoding/cashaddr.py:polymod", "riemann/encoding/cashaddr.py:calculate_checksum", "riemann/encoding/cashaddr.py:verify_checksum"]}
{"id": "C26", "title": "Cashaddr decode only accepts the network's own prefix", "statement": "If cashaddr.decode(s) succeeds, the part of s before the colon is the selected network's prefix. (Violated: only a leading match is tested, so 'bitcoincashq:...' with its own valid checksum is accepted.)", "quantifier": "every string and cashaddr network", "why_tests_cant": "A counterexample needs a checksum for a different prefix.", "anchors": ["riemann/encoding/cashaddr.py:decode"]}
{"id": "C27", "title": "Script to address to script is the identity for legacy outputs", "statement": "On every supported network, for every 20-byte hash, to_output_script(from_output_script(s)) == s for the P2PKH script s = 76a914<h>88ac and the P2SH script s = a914<h>87, with cashaddr preferred or not.", "quantifier": "every supported network, every 20-byte hash, both cashaddr settings", "why_tests_cant": "72 networks with 1- and 2-byte prefixes, overlapping prefixes (bitcoin cash), all hashes.", "anchors": ["riemann/encoding/addresses.py:from_output_script", "riemann/encoding/addresses.py:to_output_script", "riemann/encoding/addresses.py:parse"]}
{"id": "C28", "title": "Script to address to script is the identity for witness outputs", "statement": "On every SegWit network, for every 20- or 32-byte program, to_output_script(from_output_script(s)) == s for s = 0014<h> and s = 0020<h>, unless the bech32 string happens also to be a valid Base58Check string. (On bitcoin cash networks from_output_script turns these scripts into P2PKH/P2SH cashaddrs, so the identity is false there.)", "quantifier": "every SegWit network, every hash", "why_tests_cant": "All hashes on all SegWit networks with two different encoders.", "anchors": ["riemann/encoding/addresses.py:from_output_script", "riemann/encoding/addresses.py:to_output_script"]}
{"id": "C29", "title": "Addresses made from keys and scripts pay to the matching output script", "statement": "to_output_script(make_p2pkh_address(pk)) == make_p2pkh_output_script(pk), the same for make_legacy_p2pkh_address, make_p2sh_address/make_legacy_p2sh_address against make_p2sh_output_script, and for p2wpkh/p2wsh on SegWit networks (Base58Check coincidence excluded).", "quantifier": "every supported network, public key and script", "why_tests_cant": "Two independent code paths must agree for every key, script and network.", "anchors": ["riemann/encoding/addresses.py:make_pkh_address", "riemann/encoding/addresses.py:make_sh_address", "riemann/tx/tx_builder.py:make_pkh_output_script", "riemann/tx/tx_builder.py:make_sh_output_script"]}
{"id": "C30", "title": "parse_hash extracts the hash an address was made from", "statement": "parse_hash(address made from hash h) == h for legacy, cashaddr and segwit addresses. (Violated on SegWit networks that encode witness addresses in base58: on bitcore_main the result has an extra leading byte, on the others it raises.)", "quantifier": "every supported network and hash", "why_tests_cant": "All hashes and networks; failure only on a few networks.", "anchors": ["riemann/encoding/addresses.py:parse_hash"]}
{"id": "C31", "title": "to_output_script only ever returns standard templates", "statement": "Whenever to_output_script(a) returns, the result is 76a914<20>88ac, a914<20>87, 0014<20> or 0020<32>; from_output_script never returns for a script of another shape (by length and leading bytes).", "quantifier": "every string / byte string, every supported network", "why_tests_cant": "All inputs.", "anchors": ["riemann/encoding/addresses.py:to_output_script", "riemann/encoding/addresses.py:from_output_script"]}
{"id": "C32", "title": "An address is never interpreted as a different kind of output", "statement": "A bech32 address never yields a legacy output script and a base58 address with another network's version byte is rejected. (Violated: on bitcoin_main a version-5, 19-byte bech32 address is turned into a P2SH script; on bitcoin cash test networks a base58 string with version byte 0 is accepted.)", "quantifier": "every address string on every network", "why_tests_cant": "The confusion needs particular version/length combinations.", "anchors": ["riemann/encoding/addresses.py:to_output_script", "riemann/encoding/addresses.py:parse"]}
{"id": "C33", "title": "The network table is coherent", "statement": "For every supported network: P2PKH and P2SH prefixes differ, have equal length and are not witness prefixes; get_network(name) has the name 'NETWORK_SUBNET' equal to the key; bech32 networks have lower-case HRPs without separator problems; cashaddr data is all present or all absent.", "quantifier": "every supported network", "why_tests_cant": "A finite table, but every address theorem depends on all entries.", "anchors": ["riemann/networks/networks.py", "riemann/networks/__init__.py:SUPPORTED"]}
{"id": "C34", "title": "select_network is last-successful-wins and rejects unknown names", "statement": "After any sequence of select_network calls, the current network is the one of the last call with a supported name (bitcoin_main if none); a call with an unknown name raises ValueError and changes nothing; get_current_network_name returns exactly the selected name. The same holds when the argument may be any value: one that is not a supported name raises ValueError, or TypeError if it has no hash (a bytearray, list, library object, or a tuple with one inside), and changes nothing.", "quantifier": "every sequence of calls, with arguments of any type", "why_tests_cant": "All histories.", "anchors": ["riemann/__init__.py:select_network", "riemann/__init__.py:get_current_network_name", "riemann/networks/__init__.py:get_network"]}
{"id": "C35", "title": "ByteData behaves like a byte buffer until frozen and never changes afterwards", "statement": "For any sequence of operations on a ByteData, before freezing its contents are the concatenation of what was appended; after _make_immutable every += and attribute assignment raises and the bytes, length and hex stay the same forever.", "quantifier": "every operation sequence", "why_tests_cant": "All histories of operations.", "anchors": ["riemann/tx/shared.py:ByteData"]}
{"id": "C36", "title": "ByteData equality is byte equality", "statement": "a == b and a != b are complementary, depend only on the bytes, for ByteData against ByteData, bytes or bytearray, and raise TypeError for anything else.", "quantifier": "every pair of objects", "why_tests_cant": "All pairs.", "anchors": ["riemann/tx/shared.py:ByteData.__eq__", "riemann/tx/shared.py:ByteData.__ne__"]}
{"id": "C37", "title": "Outpoint, TxIn, TxOut and witness elements serialize to the Bitcoin wire format", "statement": "Every constructed Outpoint/TxIn/TxOut/WitnessStackItem/InputWitness has exactly the wire-format bytes of its attributes, and construction succeeds exactly when the field lengths are right (32+4; 36, 4 and at most 1650 script bytes; 8).", "quantifier": "every argument combination", "why_tests_cant": "All contents and lengths, including script lengths at VarInt boundaries.", "anchors": ["riemann/tx/tx.py:Outpoint", "riemann/tx/tx.py:TxIn", "riemann/tx/tx.py:TxOut", "riemann/tx/tx.py:WitnessStackItem", "riemann/tx/tx.py:InputWitness"]}
{"id": "C38", "title": "Outpoints, outputs and witnesses parse back", "statement": "from_bytes(x.to_bytes() + rest) returns x for every Outpoint, TxOut with script under 252 bytes, WitnessStackItem and InputWitness, whatever follows. (TxOut with a script of 252 bytes or more can be built but from_bytes raises NotImplementedError. On Overwinter/Sapling witness items of 253..255 bytes are excluded.)", "quantifier": "every object and trailing bytes", "why_tests_cant": "Cursor arithmetic over unbounded data.", "anchors": ["riemann/tx/tx.py:Outpoint.from_bytes", "riemann/tx/tx.py:TxOut.from_bytes", "riemann/tx/tx.py:WitnessStackItem.from_bytes", "riemann/tx/tx.py:InputWitness.from_bytes"]}
{"id": "C39", "title": "Inputs parse back to the same bytes", "statement": "TxIn.from_bytes(t.to_bytes() + rest) has the same bytes, outpoint, sequence and script_sig as t exactly when the outpoint is null, or the script_sig is made of minimal pushes and known opcodes, or the script_sig does not deserialize, or its last token is not the hex of a deserializable script, or an earlier push has more than 1000 bytes. (So the round trip fails for others: a 4c0101-style push before a deserializable last push is rewritten, a deserializable last push of more than 1000 bytes is dropped.)", "quantifier": "every TxIn and trailing bytes", "why_tests_cant": "Depends on the interaction of script parsing with the cursor for all scripts.", "anchors": ["riemann/tx/tx.py:TxIn.from_bytes", "riemann/tx/tx.py:TxIn._parse_script_sig"]}
{"id": "C40", "title": "Transactions parse back", "statement": "For every constructed Tx whose inputs and outputs parse back, Tx.from_bytes(t.to_bytes() + rest) returns a Tx with the same bytes, version, flag, inputs' and outputs' bytes, lock time, tx_id and wtx_id; a legacy Tx comes back with witnesses [] and a segwit one with its witnesses.", "quantifier": "every number of inputs, outputs and witnesses, and any trailing bytes", "why_tests_cant": "Loops over unbounded vectors with a running cursor; the flag/vector ambiguity must be excluded for all.", "anchors": ["riemann/tx/tx.py:Tx.from_bytes", "riemann/tx/tx.py:Tx.__init__"]}
{"id": "C41", "title": "Transaction serialization is the wire format and is injective", "statement": "A constructed Tx has exactly the legacy or segwit (BIP144) bytes of its fields, and two constructed Txs with equal bytes have equal version, flag, lock time and equal input, output and witness bytes in order.", "quantifier": "every pair of transactions", "why_tests_cant": "All pairs; needs unique decodability.", "anchors": ["riemann/tx/tx.py:Tx.__init__"]}
{"id": "C42", "title": "Tx construction accepts exactly well-formed transactions", "statement": "Tx(...) succeeds exactly when version and lock_time have 4 bytes, the flag is None or the network's, there is at least one input and one output, and a non-empty witness list comes with a flag and has one witness per input; otherwise it raises ValueError.", "quantifier": "every argument combination", "why_tests_cant": "All combinations of list lengths and flags.", "anchors": ["riemann/tx/tx.py:Tx.__init__"]}
{"id": "C43", "title": "tx_id ignores witnesses, wtx_id covers them", "statement": "tx_id_le of a segwit Tx is hash256 of its witness-stripped serialization and equals the tx_id_le of the legacy Tx with the same version, inputs, outputs and lock time; it is the same for all witness data. wtx_id_le is hash256 of the full bytes; tx_id/wtx_id are the reversals. For legacy Txs tx_id_le is hash256 of the bytes and wtx_id is None.", "quantifier": "every transaction and every choice of witnesses", "why_tests_cant": "All witness data.", "anchors": ["riemann/tx/tx.py:Tx.__init__", "riemann/tx/tx.py:Tx.no_witness"]}
{"id": "C44", "title": "copy without arguments is the identity and with arguments changes only those fields", "statement": "x.copy() has the same attributes and bytes as x for Outpoint, TxIn, TxOut, InputWitness and Tx, the Decred classes and the Zcash transactions (and cannot fail); x.copy(f=v) is the constructor on the arguments that x was made from with f replaced, including what it raises. (Zcash: joinsplit key, joinsplit signature and binding signature that came without joinsplits or shielded parts are forgotten.)", "quantifier": "every constructed object and every subset of overridden fields", "why_tests_cant": "All objects.", "anchors": ["riemann/tx/tx.py:Tx.copy", "riemann/tx/tx.py:TxIn.copy", "riemann/tx/tx.py:TxOut.copy", "riemann/tx/tx.py:Outpoint.copy", "riemann/tx/decred.py", "riemann/tx/sprout.py:SproutTx.copy", "riemann/tx/overwinter.py:OverwinterTx.copy", "riemann/tx/sapling.py:SaplingTx.copy"]}
{"id": "C45", "title": "Fees are inputs minus outputs", "statement": "calculate_fee(values) + sum of output values == sum(values) for Tx; for Sprout/Overwinter joinsplits vpub_new adds and vpub_old subtracts, for Sapling the signed value balance is added too; for Decred the witness values are the inputs. The fee is independent of output order.", "quantifier": "every transaction and value list", "why_tests_cant": "Sums over unbounded lists, signed value balance.", "anchors": ["riemann/tx/tx.py:Tx.calculate_fee", "riemann/tx/sprout.py:SproutTx.calculate_fee", "riemann/tx/overwinter.py:OverwinterTx.calculate_fee", "riemann/tx/sapling.py:SaplingTx.calculate_fee", "riemann/tx/decred.py:DecredTx.calculate_fee"]}
{"id": "C46", "title": "Witness sighashes follow BIP143", "statement": "For a Tx with flag or witnesses on a network without fork id, sighash_all and sighash_single with and without ANYONECANPAY return hash256 of exactly the BIP143 preimage.", "quantifier": "every transaction, index, script, value and hash type", "why_tests_cant": "All transactions and flag combinations.", "anchors": ["riemann/tx/tx.py:Tx.segwit_sighash", "riemann/tx/tx.py:Tx._hash_prevouts", "riemann/tx/tx.py:Tx._hash_sequence", "riemann/tx/tx.py:Tx._hash_outputs"]}
{"id": "C47", "title": "Fork-id sighashes follow the replay-protected scheme", "statement": "On networks with a FORKID, sighash_all/sighash_single return hash256 of the BIP143-style preimage whose type word is (FORKID << 8) | type | 0x40 (| 0x80), for witness and legacy Txs alike, and require an 8-byte prevout value.", "quantifier": "every transaction, index, script, value, hash type and fork-id network", "why_tests_cant": "All transactions.", "anchors": ["riemann/tx/tx.py:Tx._sighash_forkid", "riemann/tx/tx.py:Tx._forkid_sighash_adjustment"]}
{"id": "C48", "title": "Legacy SIGHASH_ALL follows the original algorithm", "statement": "For a legacy Tx, sighash_all(i, script) is hash256 of the legacy serialization in which input i carries the script (its length prefix stripped), all other scripts are empty, followed by the 4-byte type; with ANYONECANPAY only input i remains and 0x81 is used. It does not depend on any input's existing script_sig.", "quantifier": "every transaction, index and length-prefixed script up to 1650 bytes", "why_tests_cant": "All transactions.", "anchors": ["riemann/tx/tx.py:Tx.sighash_all", "riemann/tx/tx.py:Tx._sighash_prep", "riemann/tx/tx.py:Tx._sighash_anyone_can_pay"]}
{"id": "C49", "title": "Legacy SIGHASH_SINGLE follows the original algorithm", "statement": "For a legacy Tx, sighash_single(i, script) hashes the transaction with outputs cut to i+1 entries (all but the last nulled) and other sequences zeroed. (Violated: the code keeps as many outputs as there are inputs, so it agrees with the protocol exactly when i is the last input.)", "quantifier": "every transaction and index", "why_tests_cant": "Differs only for transactions with more inputs than i+1.", "anchors": ["riemann/tx/tx.py:Tx.sighash_single"]}
{"id": "C50", "title": "The SIGHASH_SINGLE bug and SIGHASH_NONE are refused", "statement": "sighash_single with index >= number of outputs raises NotImplementedError for every Tx on every network, sighash_none always raises, and an out-of-range input index raises IndexError rather than returning a digest.", "quantifier": "every transaction and index", "why_tests_cant": "All index/size combinations.", "anchors": ["riemann/tx/tx.py:Tx.sighash_single", "riemann/tx/tx.py:Tx.sighash_none", "riemann/tx/tx.py:Tx._hash_outputs"]}
{"id": "C51", "title": "A legacy transaction signs the same way before and after parsing", "statement": "If t is a legacy Tx, Tx.from_bytes(t.to_bytes()).sighash_all(i, s) == t.sighash_all(i, s). (Violated: every parsed Tx counts as a witness Tx because its witness list is [] rather than None, so the BIP143 path is taken and, without a prevout value, raises TypeError.)", "quantifier": "every legacy transaction", "why_tests_cant": "Requires reasoning about every parsed transaction.", "anchors": ["riemann/tx/tx.py:Tx.from_bytes", "riemann/tx/tx.py:Tx.is_witness", "riemann/tx/tx.py:Tx.sighash_all"]}
{"id": "C52", "title": "ANYONECANPAY and SINGLE leave the right parts open", "statement": "Adding, removing or changing other inputs (keeping the signed one at its index) does not change an ANYONECANPAY digest; changing outputs other than the one at the index does not change a SINGLE digest (BIP143 and legacy).", "quantifier": "every pair of transactions agreeing on the committed parts", "why_tests_cant": "Relational property over pairs of transactions.", "anchors": ["riemann/tx/tx.py:Tx.segwit_sighash", "riemann/tx/tx.py:Tx.sighash_all", "riemann/tx/tx.py:Tx.sighash_single"]}
{"id": "C53", "title": "Sighashes commit to everything they should, up to hash collisions", "statement": "If two witness transactions have equal BIP143 SIGHASH_ALL digests then they agree on version, all outpoints, all sequences, the signed outpoint, script code, value, all outputs, lock time and type, or two explicit different byte strings among the hashed ones collide; likewise legacy SIGHASH_ALL commits to version, all outpoints and sequences, the script, all outputs and lock time.", "quantifier": "every pair of transactions and signing requests", "why_tests_cant": "Needs unique decodability of the preimages.", "anchors": ["riemann/tx/tx.py:Tx.segwit_sighash", "riemann/tx/tx.py:Tx.sighash_all"]}
{"id": "C54", "title": "Zcash components round-trip at their fixed offsets", "statement": "SproutZkproof, SproutJoinsplit, SaplingZkproof, SaplingShieldedSpend, SaplingShieldedOutput and SaplingJoinsplit serialize to 296/1802/192/384/948/1698 bytes and from_bytes(x.to_bytes() + rest) returns x; wrong field lengths, both vpub values non-zero, or a non-Zcash network raise ValueError.", "quantifier": "every object and trailing bytes", "why_tests_cant": "All field contents.", "anchors": ["riemann/tx/zcash_shared.py", "riemann/tx/sapling.py"]}
{"id": "C55", "title": "Sprout transactions round-trip", "statement": "SproutTx.from_bytes(t.to_bytes()) returns t for version 2 with a 64-byte joinsplit_sig. (For version 1 from_bytes always raises TypeError: it passes None as joinsplit list.)", "quantifier": "every Sprout transaction", "why_tests_cant": "All vectors; version 1 fails for every input.", "anchors": ["riemann/tx/sprout.py:SproutTx.from_bytes", "riemann/tx/sprout.py:SproutTx.__init__"]}
{"id": "C56", "title": "Sprout sighash variants", "statement": "SproutTx.sighash_all is hash256 of the legacy-prepared transaction with empty joinsplit_sig followed by the type; sighash_single and ANYONECANPAY are refused only when joinsplits are present. (Violated: they are refused always, because the joinsplit tuple is never None.)", "quantifier": "every Sprout transaction, index, script", "why_tests_cant": "All transactions.", "anchors": ["riemann/tx/sprout.py:SproutTx.sighash_all", "riemann/tx/sprout.py:SproutTx.sighash_single", "riemann/tx/sprout.py:SproutTx._sighash_anyone_can_pay"]}
{"id": "C57", "title": "Overwinter transactions round-trip", "statement": "OverwinterTx.from_bytes(t.to_bytes()) returns t for every OverwinterTx whose inputs and outputs parse back. (Violated with 256 or more outputs and at least one joinsplit: the cursor advances by the wrong VarInt's length; 253..255 element vectors are rejected outright.)", "quantifier": "every Overwinter transaction", "why_tests_cant": "Needs large vectors and exact cursor tracking.", "anchors": ["riemann/tx/overwinter.py:OverwinterTx.from_bytes"]}
{"id": "C58", "title": "Sapling transactions round-trip", "statement": "SaplingTx.from_bytes(t.to_bytes()) returns t for every SaplingTx whose inputs and outputs parse back. (Violated with 253 or more outputs together with joinsplits or shielded components, and with 253 to 255 shielded spends.)", "quantifier": "every Sapling transaction", "why_tests_cant": "Needs large vectors and exact cursor tracking.", "anchors": ["riemann/tx/sapling.py:SaplingTx.from_bytes"]}
{"id": "C59", "title": "Zcash transactions satisfy the consensus-style limits they check", "statement": "Every constructed OverwinterTx/SaplingTx/SproutTx has at most 5 joinsplits, at most 100000 bytes, expiry at most 499999999, some input, zero value balance without shielded parts, and can only exist on its own network.", "quantifier": "every argument combination", "why_tests_cant": "All argument combinations.", "anchors": ["riemann/tx/sprout.py:SproutTx.__init__", "riemann/tx/overwinter.py:OverwinterTx.__init__", "riemann/tx/sapling.py:SaplingTx.__init__"]}
{"id": "C60", "title": "Overwinter and Sapling digests follow ZIP143 and ZIP243", "statement": "OverwinterTx.sighash and SaplingTx.sighash return BLAKE2b-256, personalised with ZcashSigHash and the branch id, of the ZIP143/ZIP243 preimage for ALL and SINGLE, with and without ANYONECANPAY, transparent or joinsplit signing.", "quantifier": "every transaction and signing request", "why_tests_cant": "All transactions.", "anchors": ["riemann/tx/overwinter.py:OverwinterTx.sighash", "riemann/tx/sapling.py:SaplingTx.sighash"]}
{"id": "C61", "title": "ANYONECANPAY is honoured by the Zcash sighash wrappers", "statement": "OverwinterTx/SaplingTx.sighash_all(anyone_can_pay=True) equals sighash(ALL, anyone_can_pay=True); when index or joinsplit are left out, the first transparent input is signed. (Violated: the wrappers swallow the argument, so the plain ALL/SINGLE digest is returned.)", "quantifier": "every transaction and request", "why_tests_cant": "The wrong digest is a well-formed digest.", "anchors": ["riemann/tx/overwinter.py:OverwinterTx.sighash_all", "riemann/tx/sapling.py:SaplingTx.sighash_all", "riemann/tx/sapling.py:SaplingTx.sighash_single"]}
{"id": "C62", "title": "Network-specific classes are gated", "statement": "No Decred object can be constructed unless a Decred network is selected, no Zcash object unless a Zcash network is, and SproutTx/OverwinterTx/SaplingTx need their exact network family: every attempt raises ValueError.", "quantifier": "every supported network and argument combination", "why_tests_cant": "All 72 networks times all arguments.", "anchors": ["riemann/tx/decred.py:DecredByteData", "riemann/tx/zcash_shared.py:ZcashByteData", "riemann/tx/sprout.py", "riemann/tx/overwinter.py", "riemann/tx/sapling.py"]}
{"id": "C63", "title": "Decred transactions serialize and identify correctly", "statement": "Every constructed DecredTx has the full-serialization bytes of its fields and at most 100000 bytes; its tx_id_le is blake256 of the prefix serialization, hence independent of the witnesses; outpoints, inputs and outputs (script under 252 bytes) parse back.", "quantifier": "every Decred transaction", "why_tests_cant": "All contents.", "anchors": ["riemann/tx/decred.py:DecredTx", "riemann/tx/decred.py:DecredOutpoint", "riemann/tx/decred.py:DecredTxIn", "riemann/tx/decred.py:DecredTxOut"]}
{"id": "C64", "title": "Decred sighash composition", "statement": "DecredTx.sighash_all(i, script) is blake256(type || prefix hash || witness-signing hash), where witness i carries the script and the others are empty; it does not depend on existing witness scripts. ANYONECANPAY should drop the other inputs. (Violated: with ANYONECANPAY only the type word changes, all inputs stay in the prefix.)", "quantifier": "every Decred transaction, index and script", "why_tests_cant": "All transactions.", "anchors": ["riemann/tx/decred.py:DecredTx.sighash_all", "riemann/tx/decred.py:DecredTx.sighash_single", "riemann/tx/decred.py:DecredTx._sighash_anyone_can_pay"]}
{"id": "C65", "title": "BLAKE-256 is independent of how the data is chunked", "statement": "Feeding a message to BLAKE.update in any number of chunks and calling digest gives blake_hash of the concatenation; digest is idempotent.", "quantifier": "every list of chunks of any sizes", "why_tests_cant": "All splittings of all messages; block-boundary caching logic.", "anchors": ["riemann/blake256.py:BLAKE.update", "riemann/blake256.py:BLAKE.final"]}
{"id": "C66", "title": "BLAKE-256 implements the padded Merkle-Damgard/HAIFA specification", "statement": "blake_hash(m) is the 32-byte digest obtained by padding m (0x80.. 0x01, 64-bit big-endian bit length), compressing 64-byte blocks with counter t = message bits so far (0 for a block without message bits), from the BLAKE-256 IV.", "quantifier": "every message shorter than 2**64 bits", "why_tests_cant": "The three padding cases and counter adjustments for all lengths.", "anchors": ["riemann/blake256.py:BLAKE.final", "riemann/blake256.py:BLAKE._compress", "riemann/blake256.py:blake_hash"]}
{"id": "C67", "title": "OP_RETURN outputs carry exactly their data", "statement": "make_op_return_output(d) succeeds exactly for len(d) <= 77 (non-Decred networks), has value 0, and its script deserializes to 'OP_RETURN <hex of d>' ('OP_RETURN OP_0' for empty data).", "quantifier": "every data string", "why_tests_cant": "All data; boundary between direct push and PUSHDATA1.", "anchors": ["riemann/tx/tx_builder.py:make_op_return_output"]}
{"id": "C68", "title": "Simple helpers build what they say", "statement": "simple.outpoint(txid, i) accepts the block-explorer id of any Tx and points at its tx_id_le; simple.output(v, a) has value v and script to_output_script(a) (0 <= v < 2**64 or OverflowError); unsigned_input has empty scripts and the given sequence; unsigned_legacy_tx/unsigned_witness_tx contain exactly the given inputs and outputs (default version 2, lock time 0).", "quantifier": "every id, index, value, address, input and output list on Bitcoin-like networks", "why_tests_cant": "All arguments.", "anchors": ["riemann/simple.py", "riemann/tx/tx_builder.py:make_outpoint", "riemann/tx/tx_builder.py:make_tx"]}
{"id": "C69", "title": "The builder works on every supported network", "statement": "make_tx, _make_output and simple.unsigned_legacy_tx build the network's transaction type on every supported network. (Violated: on Decred make_tx and all output helpers always raise, on Sprout make_tx with joinsplits always raises for an int version, on Sapling unsigned_legacy_tx always raises TypeError, and negative value balances overflow.)", "quantifier": "every argument combination on every network", "why_tests_cant": "The failures are unconditional for whole networks.", "anchors": ["riemann/tx/tx_builder.py:make_tx", "riemann/tx/tx_builder.py:_make_output", "riemann/simple.py:unsigned_legacy_tx"]}
{"id": "C70", "title": "Script-sig and output-script builders agree with the script codec", "statement": "make_script_sig(stack, redeem) deserializes to the stack tokens followed by one push of the serialized redeem script; make_p2pkh/p2sh_output_script deserialize to the standard templates; length_prepend(b) is parsed back by VarInt to len(b) followed by b.", "quantifier": "every script and byte string", "why_tests_cant": "All scripts.", "anchors": ["riemann/tx/tx_builder.py:make_script_sig", "riemann/tx/tx_builder.py:make_sh_script_pubkey", "riemann/tx/tx_builder.py:length_prepend"]}
{"id": "C71", "title": "is_push_only recognises push-only scripts", "statement": "is_push_only(s) is True exactly for scripts containing only pushes. (Violated: it returns True for every script that deserializes at all.)", "quantifier": "every script", "why_tests_cant": "Universal claim over scripts.", "anchors": ["riemann/networks/standard.py:is_push_only"]}
{"id": "C72", "title": "Standardness does not reject ordinary multi-output transactions", "statement": "check_is_standard accepts transactions with several standard outputs and at most one OP_RETURN. (Violated: any transaction with more than one output is rejected or raises; P2PK outputs make is_standard_output_type raise.)", "quantifier": "every transaction", "why_tests_cant": "Universal claim over transactions.", "anchors": ["riemann/networks/standard.py:check_is_standard", "riemann/networks/standard.py:is_standard_output_type", "riemann/networks/standard.py:is_op_return"]}
{"id": "C73", "title": "check_final is the absolute-locktime test", "statement": "check_final(t, h, ts) is lock_time <= h when lock_time < 500000000 and lock_time <= ts otherwise; it is monotone in h and ts.", "quantifier": "every transaction, height and timestamp", "why_tests_cant": "All lock times.", "anchors": ["riemann/networks/standard.py:check_final"]}
{"id": "C74", "title": "Each cashaddr payload has exactly one accepted string", "statement": "If cashaddr.decode(s1) == cashaddr.decode(s2) (same prefix) then s1 == s2. (Violated: the padding bits are not checked. Exactly: a payload of 21 bytes has 132 accepted strings with the network's prefix, one for each choice of 2 or 7 padding bits; decoding inverts encoding only on the strings encode makes. A data part has one valid checksum only.)", "quantifier": "every pair of strings on every cashaddr network", "why_tests_cant": "A counterexample needs a computed checksum over non-canonical padding.", "anchors": ["riemann/encoding/cashaddr.py:decode", "riemann/encoding/cashaddr.py:convertbits"]}
{"id": "C75", "title": "Zcash transactions have the wire format and id of the protocol", "statement": "Every SproutTx/OverwinterTx/SaplingTx serializes to the bytes the Zcash protocol specification gives for its fields, its tx_id_le is hash256 of them and tx_id its reverse, hsigs and primary_inputs are those of its joinsplits, and Overwinter/Sapling transactions with equal bytes have equal fields. (Violated by version 2 SproutTx without joinsplits: key and signature are serialized although the protocol omits them.)", "quantifier": "every constructible Zcash transaction", "why_tests_cant": "Tests compare a few fixed transactions; absent vectors, absent keys and their combinations are not enumerable.", "anchors": ["riemann/tx/sprout.py:SproutTx.__init__", "riemann/tx/overwinter.py:OverwinterTx.__init__", "riemann/tx/sapling.py:SaplingTx.__init__"]}
{"id": "C76", "title": "SIGHASH_NONE digests follow ZIP143 and ZIP243", "statement": "OverwinterTx.sighash and SaplingTx.sighash with type NONE return the ZIP143/ZIP243 digest. (Violated without ANYONECANPAY: the sequences are hashed although the ZIPs put zeros there, so signatures would be invalid; with ANYONECANPAY the digest is right.)", "quantifier": "every Overwinter and Sapling transaction, input, script, value", "why_tests_cant": "No test signs with NONE, and disagreement with the specification holds for every transaction, up to a hash coincidence.", "anchors": ["riemann/tx/overwinter.py:OverwinterTx._hash_sequence", "riemann/tx/sapling.py:SaplingTx._hash_sequence"]}
{"id": "C77", "title": "Zcash digests commit to exactly what their type promises", "statement": "Overwinter and Sapling digests of two transactions agree when the fields committed by the signature type agree, whatever the script sigs, joinsplit, spend and binding signatures are; conversely equal digests imply equal type, committed fields, script code and value, or exhibit a BLAKE2b collision or a preimage of the zero string.", "quantifier": "every pair of transactions, indices, types, scripts and values", "why_tests_cant": "Quantifies over pairs of transactions and uses only an abstract hash.", "anchors": ["riemann/tx/overwinter.py:OverwinterTx.sighash", "riemann/tx/sapling.py:SaplingTx.sighash"]}
{"id": "C78", "title": "Decred signature hashes commit to what they sign", "statement": "If two DecredTx.sighash_all calls give the same digest then hash type, version (low 16 bits), inputs, outputs, lock time, expiry and number of witnesses agree, and a non-empty script and its index agree, unless one of the three explicit pairs of hashed strings is a BLAKE-256 collision.", "quantifier": "all pairs of Decred transactions, indices and scripts", "why_tests_cant": "Pairs of arbitrary transactions; ambiguity between adjacent fields.", "anchors": ["riemann/tx/decred.py:DecredTx.sighash_all", "riemann/tx/decred.py:DecredTx._sighash_final_hashing"]}
{"id": "C79", "title": "Decred uses BLAKE-256 where the other networks use SHA-256", "statement": "On the Decred networks, and only there, Base58Check checksums are the first four bytes of the double BLAKE-256 hash and P2PKH scripts carry RIPEMD160(BLAKE256(pubkey)); on every other network both use SHA-256.", "quantifier": "every supported network, payload and key", "why_tests_cant": "All networks and payloads.", "anchors": ["riemann/utils.py:hash160", "riemann/utils.py:hash256", "riemann/encoding/base58.py:encode"]}
{"id": "C80", "title": "check_is_standard_tx decides on version, weight and script sigs", "statement": "For a Tx built by the constructor, check_is_standard_tx is check_is_standard when the version is 1 or 2, the BIP141 weight is at most 400000 and every script_sig is at most 1650 bytes and readable, and False otherwise; check_tx_size_small compares the size without witness with 82. (Violated for the version: only its first byte is compared, so version 257 passes.)", "quantifier": "every constructed transaction", "why_tests_cant": "All transactions; boundary of a weight computed from two serializations.", "anchors": ["riemann/networks/standard.py:check_is_standard_tx", "riemann/networks/standard.py:check_tx_size_small"]}
{"id": "C81", "title": "Witness and input builders keep what they are given", "statement": "make_witness keeps the byte strings in order and serializes them as a counted vector of length-prefixed strings, injectively; make_legacy_input and make_witness_input serialize as outpoint, script_sig with its length, and 4-byte sequence, refusing scripts over 1650 bytes and sequences outside 32 bits; the Decred builders keep their parts likewise, and an input built on an outpoint of another class is refused.", "quantifier": "every list of byte strings, outpoint, pair of scripts and sequence", "why_tests_cant": "All lengths and integers.", "anchors": ["riemann/tx/tx_builder.py:make_witness", "riemann/tx/tx_builder.py:make_legacy_input", "riemann/tx/tx_builder.py:make_witness_input", "riemann/tx/tx_builder.py:make_decred_input"]}
{"id": "C82", "title": "Output builders pay the right value to the right script", "statement": "make_p2pkh_output, make_p2sh_output, make_p2wpkh_output and make_p2wsh_output return an output worth exactly the value, whose script is the template around the hash of the key or of the serialized script; it is the output that simple.output makes for the address of the same key or script. Values outside 64 unsigned bits are OverflowErrors, witness forms on networks without SegWit ValueErrors.", "quantifier": "every value, key and script, every supported network but Decred's", "why_tests_cant": "All values and scripts on all networks.", "anchors": ["riemann/tx/tx_builder.py:make_pkh_output", "riemann/tx/tx_builder.py:make_sh_output", "riemann/simple.py:output"]}
{"id": "C83", "title": "Parsing untrusted bytes fails only with known exceptions and yields only well-formed transactions", "statement": "Whatever bytes are given, Tx.from_bytes either raises ValueError, IndexError or NotImplementedError, or returns a transaction that its constructor builds from its attributes: 4-byte version taken from the start, 4-byte lock time, at least one input and one output, witnesses for every input or none, a serialization no longer than the input. Off Zcash, parsing the serialization again gives the same bytes and parts. The Overwinter and Sapling parsers raise only these exceptions too and return only what their constructors build (Overwinter at most one byte longer than the input); the Sprout parser raises TypeError as well, only on bytes beginning like version 1.", "quantifier": "every byte string, every supported network", "why_tests_cant": "All byte strings, including hostile counts and lengths; tests cover a few malformed ones.", "anchors": ["riemann/tx/tx.py:Tx.from_bytes", "riemann/tx/tx.py:TxIn.from_bytes", "riemann/tx/tx.py:TxOut.from_bytes", "riemann/tx/tx.py:InputWitness.from_bytes", "riemann/tx/overwinter.py:OverwinterTx.from_bytes", "riemann/tx/sapling.py:SaplingTx.from_bytes", "riemann/tx/sprout.py:SproutTx.from_bytes"]}
{"id": "C84", "title": "Truncated transactions are refused", "statement": "No proper prefix of a serialized transaction is accepted by the parser of its class. (True of legacy and Sapling transactions. Violated by every transaction with witnesses: cut at the length of the witnesses before its end it is accepted without witnesses and with witness bytes as lock time; that is the only such prefix unless a witness item or stack is 65536 or longer. Violated by every Overwinter transaction with inputs, cut after the expiry height, and by every Sprout transaction of version 2 with a joinsplit signature, cut before the signature; those are the only such prefixes.)", "quantifier": "every constructed transaction that round-trips, every proper prefix of its serialization", "why_tests_cant": "All transactions and all cut positions, with reinterpretation of the remaining bytes.", "anchors": ["riemann/tx/tx.py:Tx.from_bytes", "riemann/tx/tx.py:InputWitness.from_bytes", "riemann/tx/shared.py:VarInt.from_bytes", "riemann/tx/overwinter.py:OverwinterTx.from_bytes", "riemann/tx/sapling.py:SaplingTx.from_bytes", "riemann/tx/sprout.py:SproutTx.from_bytes"]}
{"id": "C85", "title": "An address pays to the script it was read from", "statement": "If from_output_script names an address for a script, to_output_script of that address is that script. (True of the four templates on networks without cashaddr, unless a Bech32 address is a Base58Check string by coincidence. Violated for every script with a key hash or script hash in the place of the template and other bytes after it.)", "quantifier": "every script, every supported network, both address styles", "why_tests_cant": "All byte strings that resemble an output script; tests take correct ones.", "anchors": ["riemann/encoding/addresses.py:from_output_script", "riemann/encoding/addresses.py:to_output_script"]}
{"id": "C86", "title": "Addresses on a foreign network are refused or mean the same", "statement": "An address made on one network and used on another pays to the same script or is refused with ValueError. (Bech32 and cashaddr: true, and accepted only if the prefix is the same. Base58Check: decided by the version bytes alone; violated where one network's key version is another's script version, as Monacoin and Litecoin, and by Base58Check witness addresses, which every network but Decred's accepts. Between Decred and the others: always refused.)", "quantifier": "every pair of supported networks, every hash", "why_tests_cant": "All pairs of 72 networks and all hashes, with coincidences between the encodings excluded.", "anchors": ["riemann/encoding/addresses.py:parse", "riemann/encoding/addresses.py:to_output_script", "riemann/networks/networks.py"]}
{"id": "C87", "title": "Address functions raise only ValueError and never return None", "statement": "parse, parse_hash and to_output_script on any string, from_output_script on any bytes, and the address makers on any key or serializable script either return (a string, never None, where a string is promised) or raise ValueError; without witness the makers always return.", "quantifier": "every string, byte string, key and script, every supported network", "why_tests_cant": "All strings, including those that pass one decoder's checks halfway.", "anchors": ["riemann/encoding/addresses.py:parse", "riemann/encoding/addresses.py:parse_hash", "riemann/encoding/addresses.py:from_output_script", "riemann/encoding/addresses.py:make_pkh_address", "riemann/encoding/addresses.py:make_sh_address"]}
{"id": "C88", "title": "The script templates serialize to the scripts they stand for", "statement": "The templates of script/examples.py, filled with hex data, serialize to the opcodes named with the data pushed minimally: 2-of-2 multisig and its stack, P2PKH, P2SH, witness programs, hash time-lock. The multisig script_sig ends in the script its P2SH output commits to. (Violated by the two hash time-lock stack templates, which never serialize, and by the P2PKH template filled with a key as its comment says.)", "quantifier": "all data of 1 to 1000 bytes, every supported network", "why_tests_cant": "All data lengths; no test serializes the hash time-lock stack templates.", "anchors": ["riemann/script/examples.py", "riemann/script/serialization.py:serialize", "riemann/tx/tx_builder.py:make_script_sig"]}
{"id": "C89", "title": "Payments survive serialization", "statement": "Pay any list of amounts to addresses with simple.output, put the outputs into an unsigned legacy or witness transaction, serialize and parse it: the outputs read carry the amounts and from_output_script names the addresses, in order; ids, outpoints, sequences, version and lock time are unchanged.", "quantifier": "every non-empty list of payments and of unsigned inputs, every supported network but Zcash's and Decred's", "why_tests_cant": "Composition of builder, serializer, parser and address codec over all lists.", "anchors": ["riemann/simple.py:output", "riemann/simple.py:unsigned_legacy_tx", "riemann/simple.py:unsigned_witness_tx", "riemann/tx/tx.py:Tx.from_bytes", "riemann/encoding/addresses.py:from_output_script"]}
{"id": "C90", "title": "Signing does not change what was signed", "statement": "Build an unsigned legacy or witness transaction, ask for any digest, then fill in script sigs or witnesses with copy: the copy succeeds, keeps inputs' outpoints and sequences, outputs, version and lock time, has the same digest (or error) for every request, and for witnesses the same tx_id.", "quantifier": "every constructed Tx, every list of signed inputs or of one witness per input, every digest request, every supported network but Zcash's", "why_tests_cant": "Relates two transactions over all requests and all signatures.", "anchors": ["riemann/tx/tx.py:Tx.copy", "riemann/tx/tx.py:Tx.sighash_all", "riemann/tx/tx.py:Tx.sighash_single", "riemann/simple.py:unsigned_legacy_tx", "riemann/simple.py:unsigned_witness_tx"]}
{"id": "C91", "title": "A script without its length prefix is not signed silently", "statement": "sighash_all and sighash_single, whose script argument is documented as length-prefixed, refuse an argument whose prefix is missing or wrong. (Violated: a legacy digest strips one byte below 0xfd without looking at it, so that the script is signed without its first byte, as examples/p2pkh_op_return.py does; a segwit digest takes any bytes.)", "quantifier": "every constructed Tx, input and script of fewer than 1650 bytes", "why_tests_cant": "All scripts; the digests differ from the right ones but are well-formed.", "anchors": ["riemann/tx/tx.py:Tx._sighash_prep", "riemann/tx/tx.py:Tx.sighash_all", "riemann/examples/p2pkh_op_return.py"]}
{"id": "C92", "title": "Parsing does not depend on the network", "statement": "Script serialization and deserialization do the same on all supported networks but Decred's; Tx, TxIn, TxOut and InputWitness constructors and parsers give the same object or error on all but Zcash's and Decred's; digests depend on the network only through the fork id.", "quantifier": "every pair of networks, every input", "why_tests_cant": "72 networks squared, all byte strings; tests use one network at a time.", "anchors": ["riemann/script/serialization.py", "riemann/tx/tx.py:Tx.from_bytes", "riemann/networks/networks.py"]}
{"id": "C93", "title": "Fork ids protect against replay", "statement": "A digest made on a network with a fork id equals no digest on a network with another fork id or none, for any transactions, inputs, scripts, values and hash types, unless the two explicit preimages are a hash256 collision.", "quantifier": "every pair of networks with different fork ids, every pair of requests", "why_tests_cant": "All pairs of requests on all pairs of networks.", "anchors": ["riemann/tx/tx.py:Tx._sighash_forkid", "riemann/tx/tx.py:Tx._forkid_sighash_adjustment", "riemann/networks/networks.py"]}
{"id": "C94", "title": "Addresses begin as their network's addresses do", "statement": "On every network the Base58 addresses of P2PKH and P2SH scripts begin with the network's well-known characters (Bitcoin 1 and 3, Litecoin L and M, Zcash t1 and t3, Decred Ds and Dc, ...), its version 0 witness addresses with its registered human-readable part followed by 1q and with the length BIP 173 gives, and its cashaddr addresses with the prefix and :q or :p.", "quantifier": "every supported network, every hash, any checksum", "why_tests_cant": "2^160 hashes per network; the first characters depend on the numeric range of version, hash and checksum, of which a test samples one point.", "anchors": ["riemann/networks/networks.py", "riemann/encoding/addresses.py:from_output_script", "riemann/encoding/base58.py:encode", "riemann/encoding/bech32.py:encode", "riemann/encoding/cashaddr.py:encode"]}
{"id": "C95", "title": "BLAKE of text is BLAKE of its bytes", "statement": "update and digest with a str argument do what they do with its UTF-8 encoding.", "quantifier": "every hash length, every state of the object, every text", "why_tests_cant": "Holds for all ASCII text, and fails on text for which the number of characters and of bytes differ.", "anchors": ["riemann/blake256.py:BLAKE.update", "riemann/blake256.py:BLAKE.final"]}
{"id": "C96", "title": "Reading a digest does not disturb the object", "statement": "As with hashlib: taking the digest any number of times returns the same value, and data added afterwards continues the message, so that the next digest is that of all the data.", "quantifier": "every sequence of updates and digests", "why_tests_cant": "All interleavings of calls.", "anchors": ["riemann/blake256.py:BLAKE.update", "riemann/blake256.py:BLAKE.final", "riemann/blake256.py:BLAKE.hexdigest"]}
{"id": "C97", "title": "Errors in a row are detected", "statement": "Replacing up to six consecutive characters of an accepted bech32 address by others (other than by a change of case), or up to eight consecutive characters of the payload of an accepted cashaddr string, makes decode raise, whatever the length.", "quantifier": "every accepted string, every place, every replacement", "why_tests_cant": "2^30 and 2^40 replacements at every place of every string.", "anchors": ["riemann/encoding/bech32.py:bech32_polymod", "riemann/encoding/bech32.py:decode", "riemann/encoding/cashaddr.py:polymod", "riemann/encoding/cashaddr.py:decode"]}
{"id": "C98", "title": "Inserted and deleted characters are detected", "statement": "A string made from an accepted bech32 or cashaddr address by inserting or deleting characters is refused. (Violated: q's can be put before a final p. Twenty turn a P2WPKH address into a P2WSH address, eight extend the program of a later version by five bytes, any number extends a cashaddr payload. What holds: accepted version 0 addresses of a network have one of two lengths, twenty apart.)", "quantifier": "every accepted address that ends in p; every pair of accepted version 0 addresses", "why_tests_cant": "One address in 32 ends in p, and the inserted string must have the right length.", "anchors": ["riemann/encoding/bech32.py:bech32_verify_checksum", "riemann/encoding/bech32.py:segwit_decode", "riemann/encoding/cashaddr.py:verify_checksum", "riemann/encoding/cashaddr.py:decode"]}
{"id": "C99", "title": "Which transactions on the wire are read unchanged", "statement": "Tx.from_bytes on the wire format of a legal transaction, with or without witnesses and whatever follows, gives a transaction that writes the same bytes, and then every field, the txid and the wtxid are those sent. (Violated: this holds exactly when every output script is shorter than 252 bytes, every input script has at most 1650 bytes and is re-serialized unchanged, and on networks with the rules of Overwinter or Sapling no count or length is 253, 254 or 255; otherwise parsing raises, or silently reads a payment of another amount to another script.)", "quantifier": "every legal wire transaction of unbounded size, every trailing data, every network", "why_tests_cant": "Exactness in both directions over all wire transactions.", "anchors": ["riemann/tx/tx.py:Tx.from_bytes", "riemann/tx/tx.py:TxIn.from_bytes", "riemann/tx/tx.py:TxOut.from_bytes", "riemann/tx/tx.py:InputWitness.from_bytes"]}
{"id": "C100", "title": "Transactions do not change with the caller's lists and buffers", "statement": "After construction a transaction object is unaffected by changes to the lists and bytearrays it was built from. (Violated: Decred transactions keep the caller's lists, so appending an output later changes the fee and every signature digest but not the bytes and txid; every class keeps bytearrays by reference, so mutating one changes signature digests but not the bytes. What holds: Tx, InputWitness, Sprout, Overwinter and Sapling transactions copy the lists, and bytes and ids never change.)", "quantifier": "every memory state at construction, every later memory state, every argument", "why_tests_cant": "Quantifies over all later mutations of shared memory.", "anchors": ["riemann/tx/tx.py:Tx.__init__", "riemann/tx/tx.py:InputWitness.__init__", "riemann/tx/sprout.py:SproutTx.__init__", "riemann/tx/overwinter.py:OverwinterTx.__init__", "riemann/tx/sapling.py:SaplingTx.__init__", "riemann/tx/decred.py:DecredTx.__init__"]}
{"id": "C101", "title": "Byte objects read, search and print as their bytes", "statement": "For every byte object d (VarInt, Outpoint, ..., every transaction): d[i], slices with absent, negative or excessive bounds, iteration and find agree with the bytes of d; {:x} and {:X} give hexadecimal that from_hex reads back as the same bytes; other format codes raise TypeError; repr is printable ASCII, and what follows the name of the class is a Python literal with the bytes of d as value; `in` finds what occurs. (Violated by `in`: it is False for every bytes object, also one that occurs in d, and raises for byte objects of the library.)", "quantifier": "every byte object, index, bound, substring and format code", "why_tests_cant": "Unbounded contents and bounds; injectivity of repr is a statement about pairs.", "anchors": ["riemann/tx/shared.py:ByteData.__getitem__", "riemann/tx/shared.py:ByteData.__iter__", "riemann/tx/shared.py:ByteData.find", "riemann/tx/shared.py:ByteData.__format__", "riemann/tx/shared.py:ByteData.__repr__", "riemann/tx/shared.py:ByteData.from_hex", "riemann/tx/tx.py:Tx.from_hex"]}
{"id": "C102", "title": "The example programs do what they say", "statement": "The programs in riemann/examples run for all keys, ids, amounts and texts filled in, and make transactions, digests, addresses and script sigs that belong together. (Violated: p2pkh_op_return.py signs a digest that belongs to no standard output, and calls a function that does not exist; sapling_example.py raises TypeError when it makes the transaction; sapling_htlc_example.py calls functions that do not exist; sapling_tx_parsing.py raises ValueError on every transaction, since it passes a number as expiry height. What holds: the unsigned transaction of the first and the address and output of the third are right, and with four bytes as expiry height the last makes the same transaction with that height.)", "quantifier": "every value of the parameters of the examples, every hash function", "why_tests_cant": "The examples are not part of the test suite, and hold for all parameters.", "anchors": ["riemann/examples/p2pkh_op_return.py", "riemann/examples/sapling_example.py", "riemann/examples/sapling_htlc_example.py", "riemann/examples/sapling_tx_parsing.py"]}
{"id": "C103", "title": "Who can spend the outputs the library makes", "statement": "Under the consensus script rules: a P2PKH, P2WPKH, nested P2WPKH, P2SH or P2WSH output made by the library is spent exactly by those who know a preimage of the hash and satisfy it (a key and a good signature, or a script and a stack that makes it true), and the script sigs that the library's templates make spend it exactly if the signatures are good. The 2-of-2 template needs both signatures; the hash time-lock contract needs the secret and the first key, or the timeout and the second key; an OP_RETURN output cannot be spent. (Violated: for a redeem script of more than 520 bytes, or a witness script of more than 10000, the library makes an address, an output and a script sig, but nobody can spend the output without a hash collision.)", "quantifier": "every key, script, signature scheme, script sig, witness and supported network except Decred", "why_tests_cant": "Quantifies over all script sigs and witnesses an adversary might try.", "anchors": ["riemann/encoding/addresses.py:make_p2pkh_output_script", "riemann/encoding/addresses.py:make_p2sh_output_script", "riemann/encoding/addresses.py:make_p2wpkh_output_script", "riemann/encoding/addresses.py:make_p2wsh_output_script", "riemann/tx/tx_builder.py:make_script_sig", "riemann/tx/tx_builder.py:make_op_return_output", "riemann/script/examples.py", "riemann/examples/sapling_htlc_example.py"]}
{"id": "C104", "title": "What is signed with the library's digests is valid", "statement": "For an output made by the library, the digest that sighash_all returns for it, a signature with the hash type appended, put into the library's script sig or witness and copied into the transaction (whatever the other inputs are given): the bytes of the transaction are those of a well-formed transaction whose input is valid under the consensus rules exactly if the signature is good for the digest and the key (for a refund of the hash time-lock contract: and the lock time has passed). For P2PKH, P2WPKH, nested P2WPKH, 2-of-2 in P2SH and P2WSH, and the hash time-lock contract; with and without ANYONECANPAY, with and without fork id. (Violated: for a P2PKH input in a transaction with witnesses, sighash_all returns the BIP 143 digest, and the signature is invalid.)", "quantifier": "every transaction, input, key, signature scheme, amount; every supported network except Decred and (for inputs without witness) Zcash", "why_tests_cant": "The tests fix a handful of transactions; validity of what any signer produces is a statement over all transactions and signature schemes.", "anchors": ["riemann/tx/tx.py:Tx.sighash_all", "riemann/tx/tx.py:Tx.copy", "riemann/tx/tx.py:TxIn.copy", "riemann/tx/tx_builder.py:make_witness", "riemann/tx/tx_builder.py:make_script_sig", "riemann/encoding/addresses.py:make_p2pkh_output_script"]}
{"id": "C105", "title": "What is signed with the digests of the Zcash classes is valid", "statement": "For transparent outputs of Zcash made by the library (P2PKH, 2-of-2 in P2SH, the hash time-lock contract), the digest that sighash of OverwinterTx and SaplingTx (ALL or SINGLE, with or without ANYONECANPAY) and sighash_all of SproutTx return, a signature with the hash type appended, put into the library's script sig and copied into the transaction (whatever the other inputs are given): the copy is refused exactly above 100000 bytes, and otherwise has the bytes of a well-formed transaction whose input is valid under the rules of that version (original algorithm, ZIP 143, ZIP 243) exactly if the signature is good for the digest and the key (for a refund: and the lock time has passed). (Violated: for Sprout transactions of version 2 the digest is of bytes other than those that the network hashes, so signatures of them are invalid.)", "quantifier": "every transaction, input, key, signature scheme and amount on each Zcash network", "why_tests_cant": "The tests compare a few digests with published vectors; validity of what any signer produces is a statement over all transactions and signature schemes, and no vector covers version 2 Sprout transactions.", "anchors": ["riemann/tx/overwinter.py:OverwinterTx.sighash", "riemann/tx/sapling.py:SaplingTx.sighash", "riemann/tx/sprout.py:SproutTx.sighash_all", "riemann/tx/sprout.py:SproutTx.copy", "riemann/tx/overwinter.py:OverwinterTx.copy", "riemann/tx/sapling.py:SaplingTx.copy"]}
{"id": "C106", "title": "What is signed with SIGHASH_SINGLE is valid", "statement": "As C104 with sighash_single, for every input with an output of the same index: the script sig or witness with any signature spends the output exactly if the signature is good for the digest that sighash_single returns. Holds for witness inputs (P2WPKH, nested, 2-of-2 in P2WSH) and, on networks with fork id, for P2PKH, 2-of-2 in P2SH and the hash time-lock contract. (Violated on networks without fork id for inputs without witness: right only for the last input; for every other input the library hashes a preimage with the wrong number of outputs, so what is signed with it is invalid.)", "quantifier": "every transaction, input with an output of the same index, key, signature scheme, amount, with and without ANYONECANPAY; every supported network except Decred and Zcash", "why_tests_cant": "The vectors for SINGLE without witness sign input 0 of one transaction; validity for every position and every signature scheme is not testable.", "anchors": ["riemann/tx/tx.py:Tx.sighash_single", "riemann/tx/tx.py:Tx.copy", "riemann/examples/prep_tx_for_signing.py"]}
{"id": "C107", "title": "A signature stays valid when the parts it leaves open change", "statement": "A signature made with the digest of one transaction is valid in every other transaction that agrees on the parts the hash type commits to: with ANYONECANPAY after others add inputs before and after the signed one, with SINGLE after others change the other outputs and the sequences of the other inputs. Stated as validity under the rules of the network: the digest is taken from the first transaction, the spend is judged in the second.", "quantifier": "every pair of transactions that agree on the committed parts, every hash type that the library makes, every key and signature scheme", "why_tests_cant": "Collaborative signing (one party signs SINGLE|ANYONECANPAY, others complete) quantifies over all completions.", "anchors": ["riemann/tx/tx.py:Tx.sighash_all", "riemann/tx/tx.py:Tx.sighash_single", "riemann/tx/tx.py:Tx.segwit_sighash", "riemann/tx/tx.py:Tx._sighash_forkid"]}
{"id": "C108", "title": "What is signed with the digests of DecredTx is valid", "statement": "For a pay-to-public-key-hash output made by the library on a Decred network, the digest that sighash_all of DecredTx returns for its script, a signature with the hash type appended, put by the library's template into the witness of the input (whatever the other inputs are given): the copy is refused exactly above 100000 bytes, and otherwise has the bytes of a well-formed Decred transaction whose input is valid under Decred's rules exactly if the key has the hash and the signature is good for the digest. (Violated with ANYONECANPAY and several inputs and with SINGLE for inputs other than the last: the digest is not the one that Decred's rules ask for.)", "quantifier": "every transaction with a witness for each input, every input, key and signature scheme on each Decred network", "why_tests_cant": "The tests have digests of one transaction; validity of what any signer produces is a statement over all transactions.", "anchors": ["riemann/tx/decred.py:DecredTx.sighash_all", "riemann/tx/decred.py:DecredTx.sighash_single", "riemann/tx/decred.py:DecredTx.copy", "riemann/tx/decred.py:DecredInputWitness.copy"]}
{"id": "C109", "title": "Which Zcash transactions on the wire are read unchanged", "statement": "A well-formed Zcash transaction is read by from_bytes of the class of its version as a transaction with the same bytes exactly if: every input script has at most 1650 bytes and survives being split into stack script and redeem script; every output script has fewer than 252 bytes; there are at most five joinsplits and none both takes and gives transparent value; the transaction has at most 100000 bytes; and, on Overwinter and Sapling networks, no count of inputs, outputs or spends and no input script length is 253, 254 or 255, the expiry height is below 500000000, something is spent, there is no balance without shielded parts, and there are fewer than 253 outputs if joinsplits or shielded parts follow. Of versions 1 and 2 exactly those of version 2 with joinsplits are read. Then all fields and the id are those of what was sent. (So a spend of a 2-of-3 multisignature output, whose script sig can have 253 bytes, and every version 1 transaction are not read.)", "quantifier": "every well-formed transaction of versions 1 to 4 on every supported network of its era, whatever bytes follow (for the direction that reading succeeds)", "why_tests_cant": "The tests read a handful of transactions; which of all transactions on the network can be read is a statement about every combination of counts, lengths and scripts.", "anchors": ["riemann/tx/overwinter.py:OverwinterTx.from_bytes", "riemann/tx/sapling.py:SaplingTx.from_bytes", "riemann/tx/sprout.py:SproutTx.from_bytes", "riemann/tx/shared.py:VarInt.from_bytes", "riemann/tx/tx.py:TxIn.from_bytes"]}
{"id": "C110", "title": "The checksums are the codes of the specifications", "statement": "bech32_verify_checksum accepts exactly the code words of the BCH code of BIP 173 (the polynomial over GF(32) with the symbols as coefficients leaves remainder 1 modulo the generator), bech32_create_checksum returns the only six symbols that complete data to a code word, and cashaddr's verification accepts exactly the code words of the code with the generator of degree 8 that its specification prints. cashaddr decode reads as a payload exactly the code words over it described in C74. bech32 decode accepts exactly the strings that BIP 173 calls addresses for the network's human-readable part (one case, at most 90 characters, legal version and length, zero padding of less than five bits), and returns version, length and program.", "quantifier": "every human-readable part, every list of symbols, every string, every supported network with Bech32 or cashaddr", "why_tests_cant": "Vectors show that some checksums agree; that the bit operations with their precomputed constants divide by the specified polynomial is a statement about all messages.", "anchors": ["riemann/encoding/bech32.py:bech32_polymod", "riemann/encoding/bech32.py:bech32_create_checksum", "riemann/encoding/bech32.py:bech32_decode", "riemann/encoding/bech32.py:segwit_decode", "riemann/encoding/cashaddr.py:polymod", "riemann/encoding/cashaddr.py:decode"]}
{"id": "C111", "title": "Which strings are addresses of a script", "statement": "to_output_script(a) returns the script s exactly if a is the Base58Check string of the network's version byte and the hash in the P2PKH or P2SH script s, or the Bech32 address (version 0) of the witness script s, or, on cashaddr networks, the cashaddr string of a payload for s; or one of the following strings that no wallet makes: the Base58Check string of a witness script itself; on bitcoin_main, vertcoin_main and feathercoin_main only, a Bech32 address of version 5 (14) with a program of 19 bytes, read as a P2SH (P2PKH) address; on cashaddr networks the string in one encoding of the payload of the other. Without cashaddr a P2PKH or P2SH script has one address, unless its hash begins with 19 on one of these three networks.", "quantifier": "every string, every script, every supported network, every hash function", "why_tests_cant": "The tests read a few dozen addresses; that no other string is read as a script is a statement over all strings.", "anchors": ["riemann/encoding/addresses.py:to_output_script", "riemann/encoding/addresses.py:parse", "riemann/encoding/bech32.py:decode", "riemann/encoding/base58.py:decode", "riemann/encoding/cashaddr.py:decode"]}
{"id": "C112", "title": "What the text of a script means", "statement": "serialize(text) returns bytes exactly if every word of the text (separated by white space) is one of Bitcoin's opcode names (the old names NOP2 and NOP3 and the library's OP_PUSH_1 to OP_PUSH_75 included; on Decred OP_BLAKE256 is 0xa8 and OP_SHA256 0xc0) other than OP_CODESEPARATOR and OP_PUSHDATA4, or hexadecimal in either case of at most 1000 bytes; each name gives the byte that Bitcoin gives it and data is pushed in the shortest way. Otherwise the first other word decides: NotImplementedError for the two names and for longer data, ValueError for the rest. deserialize(bytes) returns the names and the lower-case hexadecimal of the pushes with single spaces, a final OP_PUSHDATA1 or OP_PUSHDATA2 with too little behind it being printed as what is there, unless something else is met first: NotImplementedError for 0xab and 0x4e, IndexError for a direct push with too little data or OP_PUSHDATA1 at the end, ValueError for a byte without a name.", "quantifier": "every text, every byte string, every supported network", "why_tests_cant": "The tests convert a few scripts; the meaning of all texts and bytes, the order of errors included, is a statement over unbounded strings.", "anchors": ["riemann/script/serialization.py:serialize", "riemann/script/serialization.py:deserialize", "riemann/script/opcodes.py:CODE_TO_INT", "riemann/script/opcodes.py:INT_TO_CODE"]}
{"id": "C113", "title": "parse_hash gives the hash in the script of the address", "statement": "If to_output_script(a) is a script, parse_hash(a) is the hash in it, except exactly in these cases: the script is a witness script and a does not begin with the network's human-readable part in lower case (Base58 witness addresses, and Bech32 addresses in upper case, which BIP 173 allows); on cashaddr networks the script is a witness script, or a is a Base58Check string with a cashaddr version byte that is not the network's. In the first case parse_hash returns the hash with a length byte before it if the network's P2PKH version byte is zero (Bitcoin), and raises ValueError otherwise.", "quantifier": "every string that to_output_script accepts, every supported network, all hash functions", "why_tests_cant": "The tests parse a few lower-case addresses; the claim is about every string that the other function accepts, and the failing strings are not in the tests.", "anchors": ["riemann/encoding/addresses.py:parse_hash", "riemann/encoding/addresses.py:to_output_script", "riemann/encoding/addresses.py:parse"]}
{"id": "C114", "title": "No argument of any type makes the transaction constructors build a malformed object", "statement": "Whatever values (None, integers, strings, bytes, bytearrays, ByteData objects, lists and tuples of these, objects of the other classes) a program passes to Outpoint, TxIn, TxOut, WitnessStackItem, InputWitness and Tx, it gets either ValueError, TypeError or AttributeError, or an object whose bytes are the wire format with all fields of their widths, inputs and outputs present, no witnesses or one per input, and the ids the hashes. Each constructor accepts exactly the stated arguments; AttributeError is raised only for a flag that is neither None nor bytes-like. On arguments of the annotated types the result is that of the typed model.", "quantifier": "every Python value (of the listed types), nested to any depth, all sequences of constructor calls, every supported network, all hash functions", "why_tests_cant": "Tests pass a handful of wrong types one at a time; the claim is that no combination, however built up by other constructors, gets through.", "anchors": ["riemann/tx/shared.py:validate_bytes", "riemann/tx/shared.py:__iadd__", "riemann/tx/tx.py:Outpoint.__init__", "riemann/tx/tx.py:TxIn.__init__", "riemann/tx/tx.py:TxOut.__init__", "riemann/tx/tx.py:WitnessStackItem.__init__", "riemann/tx/tx.py:InputWitness.__init__", "riemann/tx/tx.py:Tx.__init__"]}
{"id": "C115", "title": "Bytes-like arguments are interchangeable", "statement": "validate_bytes accepts bytes, bytearray and ByteData objects. A constructor that accepts one of them accepts any other with the same bytes in its place, and makes an object with the same bytes.", "quantifier": "every argument of every constructor of tx/tx.py, every pair of bytes-like values with the same bytes", "why_tests_cant": "Tests pass bytes almost everywhere; mixtures of the three kinds are not tried.", "anchors": ["riemann/tx/shared.py:validate_bytes", "riemann/tx/tx.py:TxIn.__init__", "riemann/tx/tx.py:Tx.__init__", "riemann/tx/tx.py:no_witness"]}
{"id": "C116", "title": "No argument of any type makes the Zcash constructors build a malformed object", "statement": "Whatever values a program passes to SproutZkproof, SaplingZkproof, SproutJoinsplit, SaplingJoinsplit, SaplingShieldedSpend, SaplingShieldedOutput, SproutTx, OverwinterTx and SaplingTx, it gets ValueError or TypeError, or an object of the wire format: proofs of 296 and 192 bytes, joinsplits of 1802 and 1698 bytes that move value in at most one direction, spend and output descriptions of 384 and 948 bytes, transactions of version 1 to 4 of at most 100000 bytes with at most 5 joinsplits and something to spend, an expiry height below 500000000, and the id the hash of the bytes. Two exceptions: a SproutTx of version 2 without joinsplits has a public key and signature after the empty vector, and one with joinsplits may lack the signature. Each constructor accepts exactly the stated arguments; TypeError is raised only if an argument that should be a sequence has no length, if a joinsplit's public value is not bytes-like, or if a signature that is added to the bytes is None. On arguments of the annotated types the result is that of the typed model.", "quantifier": "every Python value (of the listed types), nested to any depth, all sequences of constructor calls, every network, all hash functions", "why_tests_cant": "Tests pass a few wrong types one at a time; the claim is that no combination of values, however built up by other constructors, gets through.", "anchors": ["riemann/tx/zcash_shared.py:SproutZkproof.__init__", "riemann/tx/zcash_shared.py:SproutJoinsplit.__init__", "riemann/tx/sprout.py:SproutTx.__init__", "riemann/tx/overwinter.py:OverwinterTx.__init__", "riemann/tx/sapling.py:SaplingShieldedSpend.__init__", "riemann/tx/sapling.py:SaplingShieldedOutput.__init__", "riemann/tx/sapling.py:SaplingJoinsplit.__init__", "riemann/tx/sapling.py:SaplingTx.__init__"]}
{"id": "C117", "title": "No argument of any type makes the Decred constructors build a malformed object", "statement": "Whatever values a program passes to DecredOutpoint, DecredTxIn, DecredTxOut, DecredInputWitness and DecredTx, it gets ValueError or TypeError, or an object whose bytes are the wire format with all fields of their widths, with inputs and outputs, and (the transaction) with the id the BLAKE-256 hash of the prefix. Only the number of witnesses is not that of the inputs necessarily. Each constructor accepts exactly the stated arguments; TypeError is raised only if an argument that should be a sequence has no length, or if a script of a witness is a ByteData object. On arguments of the annotated types the result is that of the typed model.", "quantifier": "every Python value (of the listed types), nested to any depth, all sequences of constructor calls, every network", "why_tests_cant": "Tests pass a few wrong types one at a time; the claim is that no combination of values gets through.", "anchors": ["riemann/tx/decred.py:DecredOutpoint.__init__", "riemann/tx/decred.py:DecredTxIn.__init__", "riemann/tx/decred.py:DecredTxOut.__init__", "riemann/tx/decred.py:DecredInputWitness.__init__", "riemann/tx/decred.py:DecredTx.__init__"]}
{"id": "C118", "title": "copy with arguments of any type is the constructor with those arguments", "statement": "For each of the 13 classes of tx/ that have a copy method: on an object made with arguments of any type, copy(...) with arguments of any type is the constructor applied to the arguments that are not None and, for the rest, to what the object was made of: the same object or the same exception. (In the Zcash transactions, a joinsplit key or signature given without joinsplits, and a binding signature given without shielded parts, are not remembered.) copy() without arguments never raises and gives an equal object, whatever it was made of. What copy returns is of the same class and could have been made with the constructor, so it is well formed (C114, C116, C117). On arguments of the annotated types the result is that of the typed model.", "quantifier": "every Python value (of the listed types) as argument, every object made by any sequence of constructor calls, every network", "why_tests_cant": "Tests copy a few fixed objects with a few changes; the claim is about every object and every combination of arguments.", "anchors": ["riemann/tx/tx.py:Outpoint.copy", "riemann/tx/tx.py:TxIn.copy", "riemann/tx/tx.py:TxOut.copy", "riemann/tx/tx.py:InputWitness.copy", "riemann/tx/tx.py:Tx.copy", "riemann/tx/decred.py:DecredTx.copy", "riemann/tx/sprout.py:SproutTx.copy", "riemann/tx/overwinter.py:OverwinterTx.copy", "riemann/tx/sapling.py:SaplingTx.copy"]}
{"id": "C119", "title": "Bytearrays are read as bytes in every constructor and copy", "statement": "In all 20 constructors of tx/ and all 13 copy methods, replacing every bytearray in the arguments (at any depth, also inside objects and lists) by bytes with the same contents changes nothing else: the same exception is raised, or the object is the same but for the bytearrays in it that are now bytes; in particular its bytes, hashes and ids are the same.", "quantifier": "every Python value (of the listed types) as argument, nested to any depth, every network and hash functions", "why_tests_cant": "Tests pass bytes nearly everywhere; the claim is about bytearrays in every combination of positions.", "anchors": ["riemann/tx/shared.py:ByteData.__iadd__", "riemann/tx/shared.py:ByteData.validate_bytes", "riemann/tx/tx.py:Tx.__init__", "riemann/tx/sapling.py:SaplingTx.__init__", "riemann/tx/decred.py:DecredTx.__init__"]}
{"id": "C120", "title": "What from_bytes does with a value of any type", "statement": "For each of the 18 classes of tx/ whose from_bytes parses: bytes give what the typed model of the parser says; an object of any class derived from ByteData is read as its bytes; a bytearray is read as bytes, the same exception or the same object but for the bytearrays in it; and every other value is refused. The exceptions are VarInt.from_bytes, which accepts exactly the lists and tuples that start with integers spelling a number (and then does not test that the number is written compactly), and InputWitness.from_bytes, which accepts those that spell 0 and makes an empty witness.", "quantifier": "every Python value (of the listed types), every network", "why_tests_cant": "Tests parse bytes from hex; the claim is about every value that could be passed.", "anchors": ["riemann/tx/shared.py:VarInt.from_bytes", "riemann/tx/tx.py:Outpoint.from_bytes", "riemann/tx/tx.py:TxIn.from_bytes", "riemann/tx/tx.py:TxOut.from_bytes", "riemann/tx/tx.py:WitnessStackItem.from_bytes", "riemann/tx/tx.py:InputWitness.from_bytes", "riemann/tx/tx.py:Tx.from_bytes", "riemann/tx/sprout.py:SproutTx.from_bytes", "riemann/tx/overwinter.py:OverwinterTx.from_bytes", "riemann/tx/sapling.py:SaplingTx.from_bytes", "riemann/tx/decred.py:DecredTxIn.from_bytes", "riemann/tx/decred.py:DecredTxOut.from_bytes"]}
{"id": "C121", "title": "The transaction builder with arguments of any type", "statement": "Whatever the functions of tx/tx_builder.py that make outputs, witnesses, outpoints, inputs and transactions, and those of simple.py, return for arguments of any type is an object that the constructors could have made, of the class that belongs to the current network (on Sprout a plain Tx unless joinsplits are given), so C114, C116 and C117 apply to it. Bytearrays in the arguments, at any depth, are read as the bytes they hold. On arguments of the annotated types the result or exception is that of the typed model, with lists and tuples interchangeable and the empty lists that simple.py passes for a missing joinsplit key and signature treated like empty bytes.", "quantifier": "every Python value (of the listed types) as argument, every network and hash functions", "why_tests_cant": "Tests call the builder with well typed arguments on a few networks; the claim is about every value in every position.", "anchors": ["riemann/tx/tx_builder.py:make_tx", "riemann/tx/tx_builder.py:make_sh_output", "riemann/tx/tx_builder.py:make_pkh_output", "riemann/tx/tx_builder.py:make_op_return_output", "riemann/tx/tx_builder.py:make_witness", "riemann/tx/tx_builder.py:make_outpoint", "riemann/tx/tx_builder.py:make_legacy_input", "riemann/tx/tx_builder.py:make_witness_input", "riemann/tx/tx_builder.py:make_decred_input", "riemann/simple.py:unsigned_legacy_tx", "riemann/simple.py:unsigned_witness_tx"]}
{"id": "C122", "title": "Numbers passed to the transaction builder end up in the object, or are refused", "statement": "Values, indexes, trees, sequence numbers, versions, lock times, expiry heights and value balances may be passed as the docstrings say (4 or 8 little-endian bytes) or as integers; the object holds exactly these bytes, and no other value is taken for a number. make_tx looks at its numbers first, in a fixed order, and raises OverflowError for an integer out of range, TypeError for an object of the library, AttributeError for anything else; the arguments that do not belong to the current network are not looked at.", "quantifier": "every Python value (of the listed types) as argument, every network", "why_tests_cant": "Tests pass a few integers in range; that no bytes are ever accepted, and what happens to every other value, is a claim about all values.", "anchors": ["riemann/utils.py:i2le_padded", "riemann/tx/tx_builder.py:make_tx", "riemann/tx/tx_builder.py:make_sh_output", "riemann/tx/tx_builder.py:make_pkh_output", "riemann/tx/tx_builder.py:make_outpoint", "riemann/tx/tx_builder.py:make_legacy_input", "riemann/tx/tx_builder.py:make_witness_input"]}
{"id": "C123", "title": "What the sighash methods do with arguments of any type", "statement": "On every Tx object, made with arguments of any type, sighash_all and sighash_single return a digest exactly if the index is an integer (also a negative one, counted from the back) that points to an input, and for sighash_single to an output, and script and value have the form needed: bytes-like script and value with witnesses or flag (BIP143), a value of eight bytes in addition on networks with a fork id, and for other transactions a bytes-like script that starts with a number, with at most 1650 bytes behind it, and any value at all. The digest is that of the stated algorithm; anyone_can_pay is taken for false exactly if it is None, zero or empty. The call that the overloads declare, sighash_all(index, script, anyone_can_pay), signs with ANYONECANPAY (violated: the third argument is taken for the value, and on transactions without witnesses ignored), and a value that does not have eight bytes is refused (violated without fork id).", "quantifier": "every Tx object that the constructors can make, every supported network, arguments of every type", "why_tests_cant": "Arguments of any type in any combination; that nothing else is accepted cannot be sampled.", "anchors": ["riemann/tx/tx.py:Tx.sighash_all", "riemann/tx/tx.py:Tx.sighash_single", "riemann/tx/tx.py:Tx.segwit_sighash", "riemann/tx/tx.py:Tx._sighash_forkid", "riemann/tx/tx.py:Tx._sighash_prep"]}
{"id": "C124", "title": "What the sighash methods of Overwinter and Sapling transactions do with arguments of any type", "statement": "On every OverwinterTx and SaplingTx object, made with arguments of any type, sighash returns a digest exactly if a network of Zcash is selected at the call (whichever was when the object was made), not both joinsplit and anyone_can_pay are true (None, zero and empty values are false), sighash_type is a number of four bytes, with SINGLE the index is an integer (also a negative one, counted from the back) that points to an output, and either joinsplit is true or the index points to an input and script_code and prevout_value are bytes-like. For ALL and SINGLE the digest is that of ZIP143 or ZIP243 of the transaction that the object's bytes encode; when signing a joinsplit, script code and value are not looked at. Every refusal is one of the listed exceptions. sighash_all and sighash_single ignore anyone_can_pay, whatever it is. For every other hash type the digest is that of the ZIP too (violated: it commits to no output; also for 0x81, which is not taken for ALL with ANYONECANPAY).", "quantifier": "every OverwinterTx and SaplingTx object that the constructors can make, arguments of every type", "why_tests_cant": "Arguments of any type in any combination, 2^32 hash types; that nothing else is accepted cannot be sampled.", "anchors": ["riemann/tx/overwinter.py:OverwinterTx.sighash", "riemann/tx/overwinter.py:OverwinterTx.sighash_all", "riemann/tx/overwinter.py:OverwinterTx.sighash_single", "riemann/tx/sapling.py:SaplingTx.sighash", "riemann/tx/sapling.py:SaplingTx.sighash_all", "riemann/tx/sapling.py:SaplingTx.sighash_single"]}
{"id": "C125", "title": "Whatever a program does with the library, the objects it holds are of the wire format", "statement": "Take any program that writes numbers, texts, bytes, bytearrays and None, makes lists and tuples of what it holds, takes elements and reads attributes, selects networks, and calls the constructors, from_bytes, from_hex, copy, the functions of the builder and those of simple.py with anything it holds, in any order, going on after exceptions. Every object it holds at any time is of the wire format of its class: a Tx, OverwinterTx, SaplingTx or DecredTx is a transaction on the wire with all fields of their widths (a SproutTx likewise, up to the deviations of version 2 that C116 states), its ids are the hashes of what they should be the hashes of, by the hash function of the network selected when it was made; inputs, outputs, witnesses, outpoints, stack items, joinsplits, shielded spends and outputs, proofs and the Decred parts have their formats too.", "quantifier": "all finite sequences of operations, values of every type, networks selected in between", "why_tests_cant": "Programs of any length, feeding results of some calls to others, on any networks; an invariant over all executions cannot be sampled.", "anchors": ["riemann/tx/tx.py:Tx", "riemann/tx/overwinter.py:OverwinterTx", "riemann/tx/sapling.py:SaplingTx", "riemann/tx/sprout.py:SproutTx", "riemann/tx/decred.py:DecredTx", "riemann/tx/shared.py:ByteData.from_hex", "riemann/tx/tx_builder.py:make_tx", "riemann/simple.py:unsigned_legacy_tx", "riemann/__init__.py:select_network"]}
{"id": "C126", "title": "What the sighash methods of Sprout transactions do with arguments of any type", "statement": "On every SproutTx object, made with arguments of any type, sighash_all without anyone_can_pay (None, zero and empty values are false) returns a digest exactly if a network of Sprout is selected at the call (whichever was when the object was made) and the transaction has no inputs (then index and script are not looked at), or the index is an integer, also a negative one counted from the back, that points to an input, the script is bytes-like and begins with a length prefix, what follows the prefix has at most 1650 bytes, and the copy to be signed is at most 100000 bytes. The digest is the double hash of the transaction that the object's bytes encode, without signature, all scripts empty but the given one at the signed input, followed by the hash type 1. An index that is no integer gives TypeError, one that points to no input IndexError. The bytes of the object determine all these fields. sighash_single and anyone_can_pay give digests too for transactions without joinsplits (violated: they always refuse).", "quantifier": "every SproutTx object that the constructor can make, arguments of every type", "why_tests_cant": "Arguments of any type in any combination; that nothing else is accepted, and that SINGLE and ANYONECANPAY never succeed, cannot be sampled.", "anchors": ["riemann/tx/sprout.py:SproutTx.sighash_all", "riemann/tx/sprout.py:SproutTx.sighash_single", "riemann/tx/sprout.py:SproutTx._sighash_prep", "riemann/tx/sprout.py:SproutTx._sighash_anyone_can_pay"]}
{"id": "C127", "title": "What the sighash methods of Decred transactions do with arguments of any type", "statement": "On every DecredTx object, made with arguments of any type, sighash_all returns a digest exactly if a network of Decred is selected at the call (whichever was when the object was made), the index is an integer, also a negative one counted from the back, that points to a witness, the script is None, bytes or bytearray, and the copy to be signed has at most 100000 bytes; sighash_single moreover only if the index points to an input and to an output, and its own copy has at most 100000 bytes. The digest is BLAKE-256 of the hash type, the hash of the prefix of the copy and the hash of its scripts: all scripts empty but the given one (None is the empty one), with SINGLE all sequences zero but that of the signed input and one output per input, blank except the one at the signed input. anyone_can_pay is read as Python reads truth values and changes only the hash type. An index that is no integer gives TypeError, one beyond the witnesses IndexError, SINGLE without an output NotImplementedError, everything else ValueError or TypeError. The bytes of the object determine all fields.", "quantifier": "every DecredTx object that the constructor can make, arguments of every type", "why_tests_cant": "Arguments of any type in any combination; that nothing else is accepted cannot be sampled.", "anchors": ["riemann/tx/decred.py:DecredTx.sighash_all", "riemann/tx/decred.py:DecredTx.sighash_single", "riemann/tx/decred.py:DecredTx._sighash_prep", "riemann/tx/decred.py:DecredTx._sighash_anyone_can_pay", "riemann/tx/decred.py:DecredTx._sighash_final_hashing"]}
{"id": "C128", "title": "Signing at any point of any program uses the network selected then", "statement": "Take any program as in C125: it makes, reads and copies objects with arguments of any type and selects networks, in any order, going on after exceptions. Whenever it calls a sighash method of a transaction that it holds, with arguments of any type, there is a digest exactly under the conditions of C123, C124, C126 and C127 for the network that is selected at the call, and the digest is the one that this network's rules give for the transaction that the object's bytes encode, whichever networks were selected when the object and its parts were made. In particular an OverwinterTx or SaplingTx can be signed on every network of Zcash and on no other, a SproutTx only on the networks of Sprout, a DecredTx only on those of Decred, and on networks without a fork id that share the hash function a Tx gives the same digest.", "quantifier": "all finite sequences of operations, all objects held after them, arguments of every type", "why_tests_cant": "Programs of any length with networks selected in between; which network an object remembers and which one a method looks up is a property of all executions.", "anchors": ["riemann/tx/tx.py:Tx.sighash_all", "riemann/tx/tx.py:Tx.sighash_single", "riemann/tx/overwinter.py:OverwinterTx.sighash", "riemann/tx/sapling.py:SaplingTx.sighash", "riemann/tx/sprout.py:SproutTx.sighash_all", "riemann/tx/decred.py:DecredTx.sighash_all", "riemann/__init__.py:select_network"]}
{"id": "C129", "title": "Addresses and scripts from arguments of any type", "statement": "The functions of encoding/addresses.py, make_sh_script_pubkey and make_script_sig of tx_builder.py, and deserialize and hex_deserialize of script/serialization.py, called with arguments of any type: those that read an address (parse, parse_hash, to_output_script, simple.output) take texts and raise AttributeError for anything else. from_output_script reads bytes, bytearrays and objects of the library as the bytes they hold, so an outpoint or an input is refused; None, numbers, texts, lists and tuples are refused. make_pkh_address, make_p2pkh_address and make_sh_script_pubkey take bytes and bytearrays and raise TypeError for anything else. make_sh_address takes scripts in text, and make_script_sig two scripts in text; deserialize takes bytes-like values. Flags are taken for true or false. (False: from_output_script of an output that pays to a key hash gives a witness address that does not pay to the output's script if the value begins with the bytes 00 20; on Decred the functions that hash a key or a script take texts, hashing the characters, and None, 0 or an empty list as the empty key; make_script_sig reads a number as hex digits.)", "quantifier": "all values of every type for each argument, all networks", "why_tests_cant": "Which values of which type are accepted, and as what, over all values and networks.", "anchors": ["riemann/encoding/addresses.py:make_sh_address", "riemann/encoding/addresses.py:make_pkh_address", "riemann/encoding/addresses.py:from_output_script", "riemann/encoding/addresses.py:parse", "riemann/encoding/addresses.py:to_output_script", "riemann/tx/tx_builder.py:make_sh_script_pubkey", "riemann/tx/tx_builder.py:make_script_sig", "riemann/script/serialization.py:deserialize", "riemann/utils.py:hash160", "riemann/blake256.py:blake_hash"]}
{"id": "C130", "title": "Even programs that change lists and bytearrays hold only objects of the wire format", "statement": "A program does what C125 says, in any order and as long as it likes: it writes values, makes lists and tuples, takes elements and attributes, selects networks, and calls the constructors, from_bytes, from_hex, copy, the builder and the functions of simple.py with anything it holds. Between these steps it sets, adds and removes items of lists and bytes of bytearrays (and of ByteData objects that are not immutable), also of those that are attributes of objects, or elements of their tuples. Every transaction, and every part of one, that it holds at any time has bytes of the wire format as C125 says, and a transaction has the ids it had when it was made, the hashes of those bytes.", "quantifier": "all programs, of any length, with any arguments and any changes in between; all states they reach; all objects they hold", "why_tests_cant": "It is an invariant of all reachable states, with values shared in any way between objects and lists; a test follows one program.", "anchors": ["riemann/tx/shared.py:ByteData", "riemann/tx/tx.py:Tx.__init__", "riemann/tx/tx.py:TxIn.__init__", "riemann/tx/sprout.py:SproutTx.__init__", "riemann/tx/overwinter.py:OverwinterTx.__init__", "riemann/tx/sapling.py:SaplingTx.__init__", "riemann/tx/decred.py:DecredTx.__init__", "riemann/tx/tx.py:Tx.copy", "riemann/tx/tx_builder.py:make_tx"]}
{"id": "C131", "title": "Which exceptions the functions of the library raise, exactly", "statement": "A program does what C130 says: it calls functions of the library with whatever values it holds, on any network, and changes lists and bytearrays in between. For each constructor, each from_bytes and from_hex, each function of tx_builder and simple that returns an object, there is a list of exceptions: the function raises no other exception than those of its list, whatever it is called with (the number of arguments being right), and each exception of its list is raised in some call. The constructors of outpoints, outputs, stack items, proofs, Sapling spends and outputs, and Decred's outpoints, inputs and outputs raise ValueError only; the other constructors also TypeError, and Tx also AttributeError. from_hex raises ValueError and TypeError, of classes with counted parts also IndexError, and of classes with outputs also NotImplementedError; from_bytes, given lists, also AttributeError and UnboundLocalError. The builders raise ValueError, TypeError, AttributeError and OverflowError (_make_output a ValueError only, make_op_return_output and make_witness no AttributeError or OverflowError, make_sh_output also NotImplementedError). copy, of an object of any of the classes that have it, raises exactly what the constructor raises.", "quantifier": "all programs, of any length; all functions; all arguments of any type that programs can hold; all networks; all hash functions", "why_tests_cant": "That no other exception is raised is a statement about all arguments, nested values and objects included, in all reachable states.", "anchors": ["riemann/tx/tx.py:Tx.from_bytes", "riemann/tx/tx.py:Tx.__init__", "riemann/tx/shared.py:VarInt.from_bytes", "riemann/tx/shared.py:ByteData.from_hex", "riemann/tx/sapling.py:SaplingTx.from_bytes", "riemann/tx/overwinter.py:OverwinterTx.from_bytes", "riemann/tx/sprout.py:SproutTx.from_bytes", "riemann/tx/decred.py:DecredTxOut.from_bytes", "riemann/tx/tx_builder.py:make_tx", "riemann/tx/tx_builder.py:make_sh_output", "riemann/simple.py:output", "riemann/simple.py:unsigned_legacy_tx"]}
{"id": "C132", "title": "What was read once is read again unchanged", "statement": "Take any bytes, legal or not, from which from_bytes makes a transaction: Tx on any network, SproutTx, OverwinterTx or SaplingTx. The bytes of that transaction may differ from those it was read from (C99, C109). Reading them gives a transaction again, with the same bytes, ids, version, flag, outpoints, script sigs, sequences, outputs, witnesses, joinsplits, shielded parts, keys and signatures, lock time and expiry height, and reading that one's bytes gives it back exactly. The exceptions are these. On Overwinter and Sapling networks, an input script or witness item whose length is now between 253 and 255; joinsplits or shielded parts together with 253 or more outputs. In these cases the second reading raises ValueError, always. On all other networks, and for SproutTx, there is no exception. How a script sig is split into the stack script and the redeem script is not among the things that stay.", "quantifier": "all networks, all byte strings that are accepted, all transactions read from them", "why_tests_cant": "It quantifies over every accepted byte string, also malformed ones; tests re-read well-formed transactions.", "anchors": ["riemann/tx/tx.py:Tx.from_bytes", "riemann/tx/tx.py:TxIn._parse_script_sig", "riemann/tx/sprout.py:SproutTx.from_bytes", "riemann/tx/overwinter.py:OverwinterTx.from_bytes", "riemann/tx/sapling.py:SaplingTx.from_bytes", "riemann/tx/shared.py:VarInt.from_bytes"]}
{"id": "C133", "title": "What a program makes, another program can read", "statement": "A program calls the functions of the library with any arguments, in any order and on any networks, and changes its lists and bytearrays as it likes. Any Tx, OverwinterTx or SaplingTx it then holds has the bytes of one transaction on the wire. Another program, on any network, gives the object, its bytes or its hex to from_bytes or from_hex of the class. It gets an object with the same bytes if and only if the network is of the right kind and the transaction is within what the reader supports: counts and lengths the network can read, scripts of inputs of at most 1650 bytes that are kept when they are split, scripts of outputs of at most 251 bytes. If it gets one, its fields are those of the transaction, and its id is the hash of its bytes. The same holds for SproutTx of version 2, although without joinsplits or signature its bytes are not those of a transaction (C116): they are read back all the same. A SproutTx of version 1 is never read back.", "quantifier": "all programs, all networks of the sender and of the reader, all transactions held, the three ways to pass them on", "why_tests_cant": "It quantifies over all programs and pairs of networks and is an equivalence; tests read back a few transactions on the network they were made on.", "anchors": ["riemann/tx/tx.py:Tx.__init__", "riemann/tx/tx.py:Tx.from_bytes", "riemann/tx/shared.py:ByteData", "riemann/tx/overwinter.py:OverwinterTx.from_bytes", "riemann/tx/sapling.py:SaplingTx.from_bytes", "riemann/tx/sprout.py:SproutTx.from_bytes"]}
{"id": "C134", "title": "A transaction is signed alike wherever it is held", "statement": "Two programs call the functions of the library with any arguments, in any order. Each holds a transaction of the same class; the two have the same bytes, and the same network is selected (for OverwinterTx and SaplingTx: networks of Zcash; for DecredTx: of Decred). Then the two get the same digests for all arguments of sighash_all and sighash_single, of any type: whatever value one gets, the other gets. On networks without a fork id it must also hold of both Tx or of neither that their flag and witnesses are None. This exception is real: from_bytes and from_hex of Tx never return such a Tx, so a transaction made without witnesses is signed by its maker without the value of the output it spends, and by a program that read it never.", "quantifier": "all pairs of programs, all transactions they hold with equal bytes, all networks, all arguments of the digest functions", "why_tests_cant": "It compares two arbitrary programs; tests sign the object they made.", "anchors": ["riemann/tx/tx.py:Tx.sighash_all", "riemann/tx/tx.py:Tx.sighash_single", "riemann/tx/tx.py:Tx.from_bytes", "riemann/tx/overwinter.py:OverwinterTx.sighash", "riemann/tx/sapling.py:SaplingTx.sighash", "riemann/tx/sprout.py:SproutTx.sighash_all", "riemann/tx/decred.py:DecredTx.sighash_all"]}
{"id": "C135", "title": "Numbers, base58 and compact sizes are made of the right values, or refused", "statement": "The functions of utils that turn numbers into bytes take integers only, and those that turn bytes into numbers take bytes, bytearrays, objects of the library and lists or tuples of integers from 0 to 255; for all of these they give the number, or the bytes, of the stated order, length and sign, and are inverse to each other; change_endianness exchanges the two orders on every value it takes. Everything else raises TypeError, AttributeError, ValueError or OverflowError, and it is known which. base58.encode with a checksum takes bytes and bytearrays and nothing else, on every network; decode takes strings and nothing else, and raises ValueError for those that are not base58. VarInt(n) takes integers below 2^64 only and has the bytes of the compact size. Two things are wrong: base58.encode without a checksum takes lists of integers that are not bytes and carries them over, so something else is read back; and VarInt(n, 3) and VarInt(n, 5) of a number that needs more bytes is an object that is read as another number.", "quantifier": "all values of the represented types as arguments, all networks", "why_tests_cant": "It quantifies over values of all types and numbers of all sizes; tests call these functions with a few values of the annotated types.", "anchors": ["riemann/utils.py:i2le", "riemann/utils.py:i2be", "riemann/utils.py:i2le_padded", "riemann/utils.py:i2be_padded", "riemann/utils.py:le2i", "riemann/utils.py:be2i", "riemann/utils.py:change_endianness", "riemann/encoding/base58.py:encode", "riemann/encoding/base58.py:decode", "riemann/tx/shared.py:VarInt.__init__"]}
{"id": "C136", "title": "Bech32 and cashaddr strings are made of sequences of octets and read from strings, or refused", "statement": "bech32.encode returns a string exactly for the sequences (bytes, bytearrays, objects of the library, lists, tuples) that begin with a legal version and hold, from the third element on, the octets of a program of legal length, and the string is the lower-case BIP 173 address of these; the second element is never looked at. It returns None for other versions from -32 to 31 and for programs of illegal length, raises IndexError for empty values and for versions out of that range, and TypeError otherwise: a negative version is never encoded, although it selects a character. bech32.decode accepts only strings, those that BIP 173 calls addresses. cashaddr.encode returns a string exactly for sequences of octets (the empty string counts as one), the cashaddr string of these; cashaddr.decode accepts only strings. What else they raise is known for every value. On networks without the address kind all four raise ValueError.", "quantifier": "all values of the represented types as arguments, all supported networks", "why_tests_cant": "It quantifies over values of all types, versions of all sizes and programs of all lengths; that no negative version slips through is a fact about the checksum code.", "anchors": ["riemann/encoding/bech32.py:encode", "riemann/encoding/bech32.py:decode", "riemann/encoding/bech32.py:segwit_encode", "riemann/encoding/cashaddr.py:encode", "riemann/encoding/cashaddr.py:decode"]}
