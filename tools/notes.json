{
 "C04": {
  "note": "The full statement is false of the code at n = -1 (C04_false); C04_i2le_script_partial covers every other n, C04_too_big the error case."
 },
 "C05": {
  "note": "Equality with Bitcoin script numbers for every n > 0; exact characterisation for n <= 0 (C05_negative: agreement only at -64*256^j)."
 },
 "C08": {
  "note": "Acceptance of all compact encodings is false of the code exactly at 253, 254, 255 (C08_false); everything else is proved."
 },
 "C09": {
  "note": "Prefix property is false of the code for non-compact encodings off Zcash (C09_false); proved for compact encodings (C09_prefix_partial) and on Zcash networks (C09_zcash). C09_exact: what every byte string is read as, on every network."
 },
 "C100": {
  "note": "False of the code for Decred's lists (C100_decred_false) and for bytearrays (C100_bytearray_false, C100_zcash_bytearray_false). C100_tx, C100_sprout, C100_overwinter, C100_sapling and the *_parts and *_frozen theorems hold for every later memory; the *_follows theorems say exactly what digests, fee and copy become when bytearrays (and Decred's lists) are changed.",
  "status": "partial"
 },
 "C101": {
  "note": "All but `in` hold; C101_in_false, C101_in_partial."
 },
 "C102": {
  "note": "False of four programs. The _partial theorems say what is right in them, for all parameters."
 },
 "C103": {
  "note": "Decred is excluded. False for scripts that are too long for the network; the other theorems say who can spend, for every script sig and witness."
 },
 "C104": {
  "note": "Hash type ALL, with or without ANYONECANPAY (SINGLE: C106). False for inputs without witness in a transaction with witnesses."
 },
 "C105": {
  "note": "Overwinter and Sapling: proved for all hash types that sighash makes (the wrappers sighash_all and sighash_single drop anyone_can_pay, C61_false). Sprout: version 1, type ALL, at most 99800 bytes; false for version 2. Branch id of Sapling only."
 },
 "C106": {
  "note": "Witness inputs and networks with fork id: proved for every input. Networks without fork id, inputs without witness: proved for the last input, proved false for every other."
 },
 "C107": {
  "note": "Complete for witness inputs and for networks with fork id. Without fork id and witness: ALL in full; SINGLE where the digest of the first transaction is right (last input)."
 },
 "C108": {
  "note": "P2PKH only: the interpreter of Spec/Interp is Bitcoin's, and only scripts on which dcrd's agrees are decided. ALL: every input. ALL|ANYONECANPAY with one input, SINGLE for the last input; false otherwise."
 },
 "C109": {
  "note": "Exact: C109_overwinter, C109_sapling and C109_sprout are equivalences, C109_*_rest say that reading succeeds whatever follows, C109_fields_* that the fields and id are those sent. That not all legal transactions are read is shown by C109_false_multisig (2-of-3 multisignature spends) and C109_false_sprout.",
  "status": "proved"
 },
 "C11": {
  "note": "C11_identity_iff_minimal is the exact characterisation (iff) for every byte string on every supported network; C11_false is the witness for the parenthetical remark.",
  "status": "proved"
 },
 "C110": {
  "note": "The specification is in Spec/Bch: GF(32) as AdjoinRoot of a^5+a^3+1 over ZMod 2 and divisibility in the polynomial ring over it; no bit operation of the code occurs in it. C110_decode is an equivalence for every string."
 },
 "C111": {
  "note": "C111_base58, C111_bech32 and C111_cash are equivalences for every string and script and cover every supported network (networks_covered). The strings that no wallet makes are the witnesses of C32_false_*."
 },
 "C112": {
  "note": "Four equivalences: results and exceptions of serialize for every text, results and exceptions of deserialize for every byte string. The names are listed by position in Spec/ScriptText."
 },
 "C113": {
  "note": "C113_plain and C113_cash are equivalences for every string that to_output_script accepts: they say exactly when parse_hash returns the hash in the script. C113_wrong says what it returns otherwise. C113_false_upper and C113_false_crossed are the violations."
 },
 "C114": {
  "note": "C114_outpoint, C114_txIn, C114_txOut, C114_item, C114_witness and C114_tx are equivalences: which arguments are accepted and what is made of them. C114_tx_errors: which exceptions. C114_safe*: every object that can be made is the wire format of something well formed. C114_typed*: agreement with the typed model, in which the other claims are proved. Subclasses of the classes, dictionaries, floats and iterators are not represented."
 },
 "C115": {
  "note": "C115_same holds without condition for Outpoint, TxOut and WitnessStackItem. For TxIn and Tx the property is false (C115_false); C115_txIn_partial and C115_tx_partial are what holds."
 },
 "C116": {
  "note": "C116_sproutProof, C116_saplingProof, C116_joinsplit, C116_spend, C116_output, C116_sprout, C116_overwinter and C116_sapling are equivalences: which arguments are accepted, what is made of them, and which exceptions are raised. C116_safe_*: every object that can be made is the wire format of something well formed. C116_typed_*: agreement with the typed model, in which the other claims are proved."
 },
 "C117": {
  "note": "C117_outpoint, C117_txIn, C117_txOut, C117_witness and C117_tx are equivalences. C117_safe: every transaction that can be made is the wire format of something well formed. C117_typed*: agreement with the typed model."
 },
 "C118": {
  "note": "C118_args, _decred, _zcash: a copy is the constructor with the arguments that are not None replaced. C118_same: copy() is the same object. C118_made: copies could have been made with the constructor. C118_typed, C118_typed_parts: agreement with the typed model."
 },
 "C119": {
  "note": "C119_constructors and C119_copy: replacing bytearrays by bytes in the arguments replaces them in the result."
 },
 "C120": {
  "note": "C120_bytes: agreement with the typed parsers. C120_objects, C120_bytearrays: objects and bytearrays are read as bytes. C120_refused: all else is refused, but for lists given to VarInt (C120_varint) and InputWitness (C120_witness). C120_kept: an input read from a bytearray keeps bytearrays."
 },
 "C121": {
  "note": "C121_made, C121_made_simple: what is returned could have been made with the constructors. C121_class: its class. C121_typed_*: agreement with the typed model. C121_length_prepend: length_prepend of any value. C121_bytearray, C121_bytearray_simple: bytearrays are read as bytes. Not modelled with arguments of any type: make_sh_script_pubkey called directly, make_script_sig, the address of simple.output."
 },
 "C122": {
  "note": "Proved: integers in range end up in the object (C122_outputs, C122_inputs, C122_make_tx), everything else is refused in order and with the stated exceptions (C122_refused), unused arguments are ignored (C122_ignored). False: the documented form is refused (C122_documented_false), and so are negative value balances (C122_negative_balance_false)."
 },
 "C14": {
  "note": "The full claim is false of the code (C14_false: 4c05aa accepted). C14_complete_partial: only a final truncated OP_PUSHDATA1/2 can slip through; C14_direct_rejected: truncated direct pushes raise IndexError."
 },
 "C21": {
  "note": "C21_refusals: exact behaviour on illegal data."
 },
 "C24": {
  "note": "The full statement is false of the code exactly for non-empty payloads whose length is a multiple of five (C24_false); C24_behaviour gives the exact result for every payload."
 },
 "C26": {
  "note": "False of the code: a longer prefix is accepted (C26_false). C26_partial proves the leading match, the single colon and the alphabet."
 },
 "C28": {
  "note": "C28_p2wpkh and C28_p2wsh cover every SegWit network and hash; in the excluded Base58Check coincidence the result is a ValueError, never another script. C28_cashaddr_p2wpkh is the remark on Bitcoin Cash.",
  "status": "proved"
 },
 "C30": {
  "note": "Legacy and cashaddr addresses in full; bech32 witness addresses except for a Base58Check coincidence. False for base58 witness addresses on every such network and every hash (C30_false)."
 },
 "C32": {
  "note": "False of the code: C32_false_bech32 (v5, 19 bytes becomes P2SH), C32_false_cash (foreign version byte accepted), C32_false_base58_witness. The partial theorems cover every other version/length combination."
 },
 "C38": {
  "note": "Round trips for outpoints, outputs (scripts under 252 bytes), witness items and witnesses. C38_txout_long, C38_false_txout: longer output scripts are a NotImplementedError."
 },
 "C39": {
  "note": "C39_exact is the exact condition for the round trip, both ways, with outpoint, sequence and bytes. C39_roundtrip_partial and C39_false predate it and follow; C39_drops is one way in which the trip fails.",
  "status": "proved"
 },
 "C44": {
  "note": "C44_copy_args, _decred, _zcash: a copy with arguments is the constructor with those arguments replaced, for every class. C44_copy_args_zcash_kept: when nothing else is forgotten."
 },
 "C45": {
  "note": "Tx, Sprout, Overwinter, Sapling and Decred."
 },
 "C49": {
  "note": "Proved for the last input; for every other input the hashed bytes provably differ from the protocol's (C49_false)."
 },
 "C51": {
  "note": "False for every parseable legacy transaction on networks without fork id (C51_false); proved on fork-id networks."
 },
 "C52": {
  "note": "Proved for BIP143 and for legacy except ANYONECANPAY|SINGLE, whose digest also depends on the number of inputs (C52_false_legacy)."
 },
 "C55": {
  "note": "Round trip proved for version 2; C55_false_v1: parsing a version 1 transaction is always a TypeError."
 },
 "C56": {
  "note": "sighash_all proved exactly (C56_all, C56_all_no_inputs). C56_false: SINGLE and ANYONECANPAY are refused for every Sprout transaction, also without joinsplits."
 },
 "C57": {
  "note": "C57_roundtrip_partial for fewer than 253 outputs or no joinsplits; C57_false: with joinsplits and 253 or more outputs the serialized transaction is always rejected."
 },
 "C58": {
  "note": "C58_roundtrip_partial for fewer than 253 outputs or neither joinsplits nor shielded parts; C58_false, C58_false_spends: in every other case the serialized transaction is rejected."
 },
 "C59": {
  "note": "Limits and exact acceptance conditions proved for the three classes. C59_false_sprout: 'some input' fails for Sprout, version 2 needs neither inputs nor joinsplits."
 },
 "C61": {
  "note": "False of the code (C61_overwinter_false, C61_sapling_false): the wrappers drop anyone_can_pay. Without it they are right (partial theorems)."
 },
 "C62": {
  "note": "All Decred and Zcash constructors and parsers, for every network; the network lists are checked over the whole table."
 },
 "C63": {
  "note": "DecredTx.from_bytes and DecredInputWitness.from_bytes are not implemented in the code (NotImplementedError), so there is no round trip for them; C63_injective shows the bytes determine the fields."
 },
 "C64": {
  "note": "Violated for ANYONECANPAY with several inputs (C64_acp_false, and a computed digest C64_acp_false_digest) and for SINGLE when the signed input is not the last one (C64_single_false, C64_single_false_digest); C64_composition and C64_single_composition say exactly what is hashed. The dcrd algorithm in Spec/Decred.lean is written from memory of dcrd (no network)."
 },
 "C65": {
  "note": "Every variant, every list of chunks, with or without salt; the digest is computed from the absorbed message only."
 },
 "C66": {
  "note": "All four variants against a specification whose constants are computed (square roots of primes, digits of pi). The code raises struct.error for messages of 2^61 bytes or more; the model truncates the length there as the specification does."
 },
 "C69": {
  "note": "What make_tx returns has the fields given (C69_fields, every family). C69_bitcoin, C69_overwinter: it accepts what the class accepts. Sapling and Decred only with every optional argument given (_partial); the defaults, negative balances, Sprout joinsplits and Decred outputs always fail (_false theorems)."
 },
 "C70": {
  "note": "Script sigs and templates proved. length_prepend gives what VarInt.from_bytes reads back, except 253 to 255 bytes on Overwinter and Sapling (C70_length_prepend_false)."
 },
 "C71": {
  "note": "False of the code: is_push_only never answers False (C71_false). C71_accepts_partial: push-only scripts are accepted."
 },
 "C72": {
  "note": "False of the code: no transaction with two outputs passes (C72_false, C72_false_witness), P2PK raises (C72_p2pk_false), OP_RETURN outputs are refused (C72_op_return_false). C72_single_partial: single standard outputs pass; C72_sound: exactly what an accepted transaction looks like; C72_template_false: malformed scripts that pass."
 },
 "C74": {
  "note": "False of the code (C74_false). C74_exact characterises the accepted strings, C74_address_strings counts them for addresses, C74_own_encoding_partial: strings made by encode are canonical."
 },
 "C75": {
  "note": "Proved for Overwinter and Sapling (with injectivity) and for Sprout except version 2 without joinsplits, where C75_false_sprout shows the extra bytes."
 },
 "C76": {
  "note": "False of the code without ANYONECANPAY (C76_*_false: another preimage unless the sequences hash to zero); C76_*_partial: right with ANYONECANPAY."
 },
 "C78": {
  "note": "The collision alternative names the three explicit pairs of hashed strings."
 },
 "C80": {
  "note": "Exact decision (C80_decision, C80_size). The version clause is false of the code beyond its first byte (C80_version_false)."
 },
 "C82": {
  "note": "Decred is excluded because _make_output without version is refused there (C69)."
 },
 "C84": {
  "note": "Legacy and Sapling: proved for every cut (C84_legacy, C84_sapling). Segwit, Overwinter, Sprout: the _partial theorems refuse every cut but one, the _false theorems show that one is always accepted; C84_long_item_false shows that the bound on item sizes is needed."
 },
 "C85": {
  "note": "False as stated for scripts that only resemble a template. C85_exact: what from_output_script gives for every script, and what the address pays to; C85_iff: exactly when it pays to the script it was read from. Witness scripts on cashaddr networks: C28_cashaddr_p2wpkh."
 },
 "C86": {
  "note": "Exact behaviour for every pair of networks: Base58Check (between networks with the same checksum hash; C86_decred: between Decred and the others always refused), Bech32, cashaddr. The kind is kept unless a version byte is shared between kinds."
 },
 "C87": {
  "note": ""
 },
 "C88": {
  "note": "Templates filled with hex of 1 to 1000 bytes. The stack templates with OP_TRUE/OP_FALSE never serialize."
 },
 "C89": {
  "note": "OwnAddress says that to_output_script and from_output_script agree on the address; C89_own shows it of every address made from a hash (witness: unless a Base58Check string by coincidence)."
 },
 "C90": {
  "note": ""
 },
 "C91": {
  "note": "False of the code for every script with first byte below 0xfd (C91_false, C91_unprefixed_false, C91_witness_false). C91_exact: what is signed or refused for every argument; C91_unprefixed_never: without its prefix no script gets its digest."
 },
 "C92": {
  "note": "C92_decred shows why Decred is left out."
 },
 "C93": {
  "note": "BIP143-style preimages on both sides (C93_bip143) or a legacy transaction on the network without fork id (C93_legacy)."
 },
 "C94": {
  "note": "C94_base58 for all networks but decred_simnet (C94_base58_covers), C94_bech32 for all bech32 networks but litecoin_reg, C94_cashaddr; false of the code for decred_simnet, litecoin_reg, the prefix of bitcoin_cash_reg, and the witness addresses of the five networks whose segwit encoder is Base58."
 },
 "C95": {
  "note": "C95_text says exactly what is hashed. Holds for ASCII text (C95_ascii_partial), false for other text (C95_false)."
 },
 "C96": {
  "note": "C96_partial: digests without further updates, in any number. False of the code when updates follow (C96_false, C96_empty_false)."
 },
 "C97": {
  "note": "Any length; the address theorem of Bech32 covers all places including the human-readable part."
 },
 "C98": {
  "note": "False of the code (C98_version0_false, C98_later_versions_false, C98_cashaddr_false), for every address ending in p. C98_partial: lengths of accepted version 0 addresses."
 },
 "C99": {
  "note": "C99_exact is an equivalence on every network; that the condition can fail on legal transactions is C99_false_output, C99_false_misread and C99_false_length."
 },
 "C123": {
  "note": "C123_witness, C123_forkid, C123_legacy: exactly when there is a digest, and which. C123_index: the exception for an index that is no integer. False: the declared overload (C123_overload_false) and the length of the value (C123_value_false). The sighash methods of Overwinter and Sapling are in C124; those of Sprout and Decred in C126 and C127."
 },
 "C124": {
  "note": "C124_overwinter, C124_sapling: exactly when there is a digest, and which. C124_refused: the exceptions. C124_overwinter_methods, C124_sapling_methods: sighash_all and sighash_single, whatever anyone_can_pay is. False for hash types other than ALL, NONE and SINGLE (C124_overwinter_type_false, C124_sapling_type_false); for NONE see C76."
 },
 "C125": {
  "note": "C125_tx, C125_overwinter, C125_sapling, C125_sprout, C125_decred: the transactions; C125_parts, C125_small: everything else. Invariant of all executions (run_ok): what a program holds can be made with the constructors on the supported networks, and a supported network is selected. A program changes no list or bytearray after it was made (for that see C130)."
 },
 "C126": {
  "note": "C126_all: exactly when there is a digest, and which. C126_index: the exceptions for an index. C126_fields: every object has such fields, and only one choice. C126_false: SINGLE always refuses with ValueError, ANYONECANPAY wherever ALL would succeed (the tuple of joinsplits is compared with None, C56)."
 },
 "C127": {
  "note": "C127_all, C127_single: exactly when there is a digest, and which. C127_refused: the exceptions. C127_fields: every object has such fields, and only one choice. That this digest is not the one of dcrd for SINGLE and ANYONECANPAY is C64."
 },
 "C128": {
  "note": "C128_tx, C128_overwinter, C128_sapling, C128_sprout, C128_decred: exactly when there is a digest, and which, at any point of any program. C128_selected: which network is selected. C128_replay: the digest of a Tx is the same on networks without a fork id that share the hash function and the rule for numbers."
 },
 "C129": {
  "note": "C129_address: functions that read addresses. C129_from_script, C129_from_script_refused, C129_inputs_refused, C129_output: from_output_script; C129_output_false: outputs whose value begins with 00 20 get a wrong address. C129_pkh_address, C129_sh_script, C129_sh_address: exactly what is accepted, and as what; C129_pkh_address_partial: networks other than Decred; C129_pkh_address_false: Decred. C129_script_sig, C129_script_sig_refused; C129_script_sig_false: numbers are read as hex. C129_deserialize, C129_hex_deserialize. C129_script_type, C129_script_sig_negative: what make_script_sig raises."
 },
 "C130": {
  "note": "C130_tx, C130_overwinter, C130_sapling, C130_sprout, C130_decred: the transactions; C130_parts, C130_small: everything else. Invariant of all reachable states (reach_good): an object a program holds has the bytes and ids of one that the constructors make of suitable arguments, whatever became of its other attributes. The changes of the model (Changed) are those that values shared in any way could undergo, and more; lists that contain themselves are left out."
 },
 "C131": {
  "note": "C131_raises: the table Spec.excs, of all functions but copy; both directions, for every hash. C131_copy: copy of any object a program holds. The AttributeError that a missing method and the TypeError that a wrong number of arguments gives are left out."
 },
 "C132": {
  "note": "C132_tx, C132_sprout, C132_overwinter, C132_sapling: when the second reading succeeds and what it keeps, and that it raises ValueError otherwise; both directions, so the property with its exceptions is proved. C132_false, C132_false_zcash: bytes read once and not twice, on Overwinter and Sapling networks. C132_false_split: the split of a script sig can change at the second reading.",
  "status": "proved"
 },
 "C133": {
  "note": "C133_tx, C133_overwinter, C133_sapling, C133_sprout: both directions, and the fields. C133_false: a program that holds a transaction nobody can read (one of the exceptions in the statement).",
  "status": "proved"
 },
 "C134": {
  "note": "C134_tx, C134_overwinter, C134_sapling, C134_sprout, C134_decred: equal digests. C134_read, C134_none, C134_false: the exception in the statement.",
  "status": "proved"
 },
 "C135": {
  "note": "C135_varint_false and C135_base58_false are the two exceptions in the statement; the other theorems are equivalences or exact refusals. hash160 and the other functions on values of any type: C129.",
  "status": "proved"
 },
 "C136": {
  "note": "Equivalences for the results and the refusals; C110 has the specification of the strings.",
  "status": "proved"
 }
}
