# Design: a Lean 4 model of riemann

## Method

* The Python sources of `/repo/riemann` are modelled function by function as total, computable Lean
  functions in `lean/Verif/Model/*.lean`. Each definition cites file and lines.
* Python `bytes`/`bytearray` are `List UInt8`, Python `str` is `List Char`, Python `int` is `Int` (or `Nat` where
  only non-negative values can flow). Exceptions are values: `Except PyErr α`, one constructor of `PyErr` per
  Python exception class the code raises or lets through.
* Global state (`riemann.network`) is an explicit argument. Classes are structures holding every public attribute plus
  `bytes`; constructors are functions `make : … → Except PyErr X`. "Every object" in a theorem is
  "every `x` with `make args = .ok x`" (predicates `X.Built`).
* The cryptographic primitives of `hashlib` (SHA-256, RIPEMD-160, BLAKE2b) are parameters (`Hashes`) with only their
  output length assumed where needed. BLAKE-224/256/384/512, which the repository implements itself, are modelled
  concretely and proved equal to a separate specification.
* Collision resistance is never assumed. Statements of the form "the digest commits to x" are proved as "equal digests imply
  equal x, or the two explicitly given byte strings are a collision of the hash".
* Specifications live in `lean/Verif/Spec/*.lean` and do not use the model's helpers. Property theorems live in
  `lean/Verif/Props/*.lean`, helper lemmas in `lean/Verif/Lemmas/*.lean`. Theorem names begin with the property id.
* A property that the code violates gets (a) a theorem `Cnn_…false…` proving the negation, for a concrete witness or for a whole
  class of inputs, and (b) theorems (suffix `_partial` when they are a part of the statement) proving the largest true part.
  Such disagreements are listed below.

## Trusted base

* Lean's kernel. The axioms each theorem uses are listed in `AXIOMS.txt` (made with `tools/axioms.py`): at most `propext`,
  `Classical.choice`, `Quot.sound`. No axiom is added, there is no `sorry`, no `native_decide`, no `bv_decide`.
* The faithfulness of the transcription (reviewed by hand against the cited lines) and of the model of the Python
  built-ins in `Verif/Py.lean` (`int.to_bytes`, `int.from_bytes`, slicing, indexing, `bytes.find`, `bytes.fromhex`,
  `str.split`, `str.lower/upper`).
* `hashlib` primitives are uninterpreted functions.
* The specifications: Bitcoin wire format, CompactSize, BIP143, BIP173, the cashaddr polynomial, ZIP143/ZIP243, the BLAKE
  specification, dcrd's signature hash, and the script interpreter (`Spec/Interp`, `Spec/SpendTx`: the opcodes that the library's templates use,
  the limits on pushes and scripts, P2SH, BIP 65, BIP 141; without signature encodings, counts of operations and stack elements, OP_CODESEPARATOR and the removal
  of signatures from the script code; other opcodes fail). They were written without network access, from knowledge of those documents. BLAKE's
  constants are computed in the specification (digits of pi, square roots of primes) rather than copied.

## What is modelled

| source | model |
|---|---|
| utils.py | `Model/Utils` |
| tx/shared.py (`ByteData`, `VarInt`) | `Model/Shared`, `Model/ByteData` (reading, searching, printing) |
| script/opcodes.py, script/serialization.py | `Model/Opcodes`, `Model/Script` |
| encoding/base58.py, bech32.py, cashaddr.py, addresses.py | `Model/Base58`, `Bech32`, `Cashaddr`, `Addresses` |
| networks/networks.py, networks/__init__.py, riemann/__init__.py | `Model/Networks` (all 72 networks) |
| tx/tx.py | `Model/Tx` (objects, parsers), `Model/Sighash` (digests) |
| tx/zcash_shared.py, sprout.py, overwinter.py, sapling.py | `Model/Zcash`, `Sprout`, `Overwinter`, `Sapling` |
| the constructors again, with arguments in mutable memory | `Model/Alias` |
| the constructors of tx/tx.py again, with arguments of any type | `Model/Dyn` |
| tx/decred.py, blake256.py | `Model/Decred`, `Model/Blake256` |
| tx/tx_builder.py, simple.py | `Model/Builder` (`Builder.*`, `Simple.*`) |
| networks/standard.py | `Model/Standard` |
| script/examples.py | `Model/Examples` |
| examples/p2pkh_op_return.py, sapling_example.py, sapling_htlc_example.py, sapling_tx_parsing.py | `Model/ExampleScripts` |

## The model against the library's own tests

`lean/Verif/Vectors/*.lean` asks the model all the questions of `riemann/tests` that can be put to it: 437 examples with SHA-256, RIPEMD-160 and BLAKE2b
computed (`Spec/Hash`): 35 BLAKE-256 messages, the BIP 173 lists, addresses of Bitcoin, Bitcoin Cash and Decred, scripts, real transactions with their
ids, the legacy, BIP 143 and fork-id digests, the vectors of ZIP 143 and ZIP 243, a Decred transaction. All answers agree. `tools/vectors.py` writes these
modules from the text of the tests. They are tests of the transcription, not proofs; no theorem depends on them or on `Spec/Hash` (theorems hold for
every `Hashes`; `Spec.hashlib_ok` shows that the length assumption holds of the computed functions). Left out: arguments of a wrong Python type, mocks,
keyed BLAKE2, two inputs of over 65 kB that the kernel evaluates too slowly.

`tools/networks.py` reads `riemann/networks` as text and compares the constants of all 72 networks with `Model/Networks`: no difference. Every other
modelled file has been read a second time next to its model.

## Not modelled

* Runtime type checks on arguments of a wrong Python type (`validate_bytes` on an `int`, …), except in the constructors of the classes of tx/, their `copy` and `from_bytes`, the functions of
  tx/tx_builder.py that make objects, simple.py, the sighash methods of all five transaction classes, encoding/addresses.py, `make_sh_script_pubkey`, `make_script_sig`, `deserialize` and `hex_deserialize`, which `Model/Dyn`, `Model/DynZcash`, `Model/DynDecred`, `Model/DynCopy`, `Model/DynParse`, `Model/DynBuilder`, `Model/DynSighash`, `Model/DynZSighash`, `Model/DynSighash2` and `Model/DynAddr` give a second
  time with arguments of any type (`C114_typed`, `C116_typed_*`, `C117_typed`, `C118_typed`, `C120_bytes`, `C121_typed_*`, and `same_all` and `same_single` of `Props/DynTwin` say that the typed model agrees with them; `Model/DynEmbed` says which value an object of the typed model is). Elsewhere the model is typed; where a `None`/wrong type actually flows in
  existing callers it is modelled explicitly.
* Exception messages, `riemann/tests`, one of the five programs in `riemann/examples` (it is not a Python program). Slices of byte objects with a step.
* Resource exhaustion. BLAKE messages of 2^61 bytes or more (`struct.error` in the code).
* Aliasing, except at construction of transactions (`Model/Alias`): everywhere else values are immutable. `make_op_return_output` puts a
  `bytearray` in the output object.

## Disagreements between code and property

Each line names the theorem that proves the disagreement.

* `i2le_script(-1)` decodes to another number (`C04_false`; as `(-1).to_bytes(0, 'little', signed=True)` is `b''` in CPython 3.11); a negative number gets Bitcoin's encoding only if it is -64*256^j (`C05_negative`).
* `VarInt.from_bytes` on Overwinter and Sapling refuses the compact encodings of 253, 254, 255 (`C08_false`); elsewhere a non-compact
  encoding is accepted and has another length when written, so cursors that add `len(varint)` go wrong (`C09_false`); `C09_exact` says what
  every byte string is read as.
* `deserialize` accepts a truncated final OP_PUSHDATA1/2 (`C14_false`); non-minimal pushes are not preserved (`C11_false`).
* cashaddr: the last byte is lost when the payload length is a non-zero multiple of five (`C24_false`); `decode` accepts
  longer prefixes than the network's (`C26_false`); padding bits are not tested, so two strings decode to one payload (`C74_false`),
  132 strings to a 21-byte one (`C74_address_strings`).
* The checksums do not see `q`s put before a final `p`: twenty of them turn a P2WPKH address into one of a 32-byte program
  (`C98_version0_false`), eight lengthen a program of a later version by five bytes (`C98_later_versions_false`), and any number lengthens a
  cashaddr payload (`C98_cashaddr_false`). For Bech32 this is a weakness of BIP 173 itself.
* `validate_bytes` accepts `ByteData` objects, but `TxIn` raises TypeError if a script is one, and `Tx` if there is a flag and version or lock time is one (`C115_false`).
* The joinsplit constructors read the public values before they test them: TypeError for `None` (`C116_vpub_none`). `DecredTx` accepts any number of witnesses, and
  `DecredInputWitness` raises TypeError for `ByteData` scripts (`C117_tx`, `C117_witness`).
* `parse_hash` is wrong on Bech32 addresses in upper case, which `to_output_script` reads: 21 bytes on Bitcoin, ValueError on Litecoin (`C113_false_upper`); `C113_plain`
  and `C113_cash` say exactly when it is right.
* `parse_hash` is wrong on every base58 witness address (`C30_false`); a version 5 bech32 address with 19 bytes becomes a P2SH script
  (`C32_false_bech32`); foreign version bytes are accepted on Bitcoin Cash (`C32_false_cash`), and base58 strings beginning 00 14 are
  accepted as witness outputs on every network (`C32_false_base58_witness`).
* `from_output_script` ignores what follows the hash, so that it gives scripts the address of another script (`C85_false`). A Monacoin key address
  pays to a script hash on Litecoin (`C86_kind_false`); Base58Check witness addresses are accepted on every network but Decred's
  (`C86_base58_witness_false`). Base58Check addresses are refused between Decred and the others (`C86_decred`).
* Decred simnet addresses begin with 2F and Tc instead of Ss and Sc (`C94_decred_simnet_false`), Litecoin regtest witness addresses with tltc instead
  of rltc (`C94_litecoin_reg_false`), Bitcoin Cash regtest addresses with bchtest instead of bchreg (`C94_cashaddr_reg_false`); witness addresses of
  Groestlcoin, Monacoin, Syscoin, Bitcore and Navcoin are Base58 strings that begin with 1 (`C94_base58_witness_false`).
* BLAKE `update` with text counts characters but hashes bytes, so that text which is not ASCII loses its end (`C95_false`); `update` after `digest`
  goes on with the padded state (`C96_false`), even with no data (`C96_empty_false`).
* script/examples.py: the two hash time-lock stack templates never serialize, OP_TRUE and OP_FALSE being unknown (`C88_htlc_stack_false`); the P2PKH
  template needs the hash, not the key its comment asks for (`C88_p2pkh_pubkey_false`).
* riemann/examples: p2pkh_op_return.py signs the digest of a script that is no output script (`C102_op_return_digest_false`) and then calls the
  missing `simple.p2pkh_input` (`C102_op_return_false`); sapling_example.py raises TypeError (`C102_sapling_false`); sapling_htlc_example.py
  calls the missing `simple.empty_outpoint` (`C102_htlc_false`); sapling_tx_parsing.py passes a number as expiry height, ValueError for every
  transaction (`C102_parsing_false`).
* tx/tx.py:542-543: a `Tx` without flag gets `wtx_id = None` and the misspelt `wtx_le = None`, so it has no attribute `wtx_id_le`. The typed model has
  `wtxIdLe = none` for "not set".
* `VarInt.from_bytes` reads lists and tuples of integers, and does not test these for compactness; `InputWitness.from_bytes([0])` is the empty witness (`C120_varint`, `C120_witness`).
* The docstrings of tx_builder.py ask for numbers as little-endian bytes; bytes are always refused, mostly with AttributeError (`C122_documented_false`). Only the version of a `SproutTx` must be bytes, against its annotation. On Overwinter and Sapling the version is not looked at (`C122_ignored`).
* `value_balance` is a net change, but no negative one is accepted (`C122_negative_balance_false`).
* The overloads of `sighash_all` and `sighash_single` (tx/tx.py:687-712, 796-821) declare the call `(index, script, anyone_can_pay)`; the third argument is `prevout_value`. Without witnesses `tx.sighash_all(0, script, True)` silently returns the digest without ANYONECANPAY; with witnesses or a fork id it raises (`C123_overload_false`).
* `segwit_sighash` takes values of any length (`C123_value_false`). With a negative index `sighash_single` pairs the input counted from the back with the output counted from the back, which is another position if the numbers differ (`C123_witness`, `C123_legacy`).
* `sighash` of `OverwinterTx` and `SaplingTx` compares the hash type with 1 and 3 only. Every other number of four bytes gives a digest that commits to no output; in particular 0x81 is not ALL with ANYONECANPAY: all outpoints are hashed, and no output (`C124_overwinter_type_false`, `C124_sapling_type_false`).
  A list that starts with a number above 255 raises UnboundLocalError.
* `from_output_script` given an output object instead of its script reads the object's bytes: if the value begins with 00 20 (8192 satoshi, say) and the script pays to a key hash, it gives a P2WSH address that does not pay to that script (`C129_output_false`).
* On Decred `make_pkh_address` and `make_sh_script_pubkey` accept a key in hex and hash its characters, and accept None, 0 and the empty list as the empty key (`C129_pkh_address_false`); elsewhere these raise TypeError. `make_script_sig(51, …)` pushes the byte 0x51 (`C129_script_sig_false`).
* `copy` takes None for "not given", so no attribute can be set back to None with it: a segwit transaction cannot be made a legacy one (`C118_args`).
* For a redeem script of more than 520 bytes `make_p2sh_address`, `make_p2sh_output_script` and `make_script_sig` succeed, but the output can be
  spent only with a hash collision (`C103_p2sh_false`); the same for witness scripts of more than 10000 bytes (`C103_p2wsh_false`).
* `sighash_all` of a transaction with witnesses returns the BIP 143 digest also for an input without witness; a signature of it is invalid
  (`C104_mixed_false`; `C104_mixed` says which digest is needed).
- C135: `VarInt(70000, 3)` has the bytes fd 70 11 01, which are read as 4464 (`C135_varint_false`); `base58.encode([300], checksum=False)` is the encoding of the bytes 1, 44
  (`C135_base58_false`).
- Sprout transactions of version 2: zcashd hashes the joinsplits with 64 zero bytes in place of the signature, and nothing more if there are none;
  the library hashes no signature, and the public key even without joinsplits. The lengths always differ (`C105_sprout_false`), so what is signed with
  `SproutTx.sighash_all` in version 2 is invalid. What zcashd does is stated in `Spec/SpendZcash` from memory (`nullJoinSplitSig`), no copy was at hand.
* `sighash_single` without witnesses and fork id: for every input but the last the input is valid for signatures of the original algorithm's hash, and
  the library returns the hash of other bytes (`C106_false`; a whole invalid payment on Bitcoin, with the real SHA-256: `C106_false_bitcoin`).
  riemann/examples/prep_tx_for_signing.py signs the first of two inputs in this way.
* A Sapling or Overwinter transaction that spends a 2-of-3 multisignature output with signatures of 71 and 72 bytes is refused, since its script sig
  has 253 bytes (`C109_false_multisig`); no version 1 transaction and no version 2 transaction without joinsplits is read (`C109_false_sprout`).
  `C109_overwinter`, `C109_sapling` and `C109_sprout` say exactly which are read.
* Decred, ANYONECANPAY with several inputs and SINGLE for an input that is not the last: what is signed is invalid (`C108_false`).
* `TxOut.from_bytes` does not read scripts of 252 bytes or more (`C38_false_txout`); `TxIn.from_bytes` rewrites a non-minimal push before the
  last push of a script_sig (`C39_false`) and drops a last push of more than 1000 bytes that is itself a script (`C39_drops`).
* `Tx.from_bytes` raises on a legal transaction with a 252-byte output script (`C99_false_output`) and reads one with a non-minimal push as
  another payment, silently (`C99_false_misread`); on Zcash networks it rejects lengths from 253 to 255 (`C99_false_length`); `C99_exact` says for which transactions it is right.
* What `from_bytes` returns on Overwinter and Sapling networks cannot always be read again: a script sig of 256 bytes with a push that is not
  minimal becomes one of 255 bytes (`C132_false`, `C132_false_zcash`). The second reading can also split a script sig in another way than the
  first, when the first dropped a redeem script that is too long to serialize (`C132_false_split`).
* Decred transactions keep the caller's lists: an output appended later changes the fee and the digests but not the bytes
  (`C100_decred_false`). A bytearray passed as a sequence or lock time and changed later changes the
  digests but not the bytes (`C100_bytearray_false`, `C100_zcash_bytearray_false`); the `C100_*_follows` theorems say what the digests become.
* `b in d` for a byte object `d` is False for every `bytes` object, whether it occurs in `d` or not (`C101_in_false`).
* Every transaction with witnesses has a proper prefix that `Tx.from_bytes` accepts, without witnesses and with another lock time
  (`C84_segwit_false`); a witness item of 65536 bytes or more gives further ones (`C84_long_item_false`). Overwinter: the joinsplits can be
  cut off (`C84_overwinter_false`). Sprout version 2: the joinsplit signature can be cut off (`C84_sprout_false`).
* Legacy `sighash_single` is right only for the last input (`C49_false`); a parsed legacy transaction cannot be signed, TypeError
  (`C51_false`; of all programs: `C134_read`, `C134_none`, `C134_false`); legacy `ANYONECANPAY|SINGLE` depends on the number of inputs (`C52_false_legacy`).
* A legacy digest strips the length prefix of its script without looking at its value (`C91_false`); a script passed without prefix is signed
  without its first byte (`C91_unprefixed_false`); a segwit digest takes the script as it is (`C91_witness_false`). `C91_exact` gives the
  digest of every argument; no script without its prefix gets the digest of itself (`C91_unprefixed_never`).
* Sprout: version 1 never parses (`C55_false_v1`), version 2 without joinsplits has extra bytes (`C75_false_sprout`), SINGLE and
  ANYONECANPAY are refused always (`C56_false`), version 2 needs no inputs (`C59_false_sprout`).
* Overwinter, Sapling: with 253 or more outputs and joinsplits (Sapling: or shielded parts) a serialized transaction is rejected (`C57_false`,
  `C58_false`), and so is a Sapling transaction with 253 to 255 shielded spends (`C58_false_spends`); the wrappers drop `anyone_can_pay` (`C61_*_false`); SIGHASH_NONE hashes the sequences (`C76_*_false`).
* Decred: ANYONECANPAY signs the prefix of the whole transaction, SINGLE has the wrong number of outputs unless the signed input is the
  last (`C64_acp_false`, `C64_single_false`).
* `make_tx` and the `simple` functions never succeed on Sapling without shielded lists, on Sprout with joinsplits, and on Decred with a list of
  witnesses (`C69_*_false`); `length_prepend` gives bytes that are not read back on Overwinter and Sapling (`C70_length_prepend_false`).
* `is_push_only` never answers False (`C71_false`); `check_is_standard` refuses every transaction with two outputs (`C72_false`), raises on P2PK
  (`C72_p2pk_false`), refuses every OP_RETURN output (`C72_op_return_false`), and passes malformed scripts (`C72_template_false`);
  `check_is_standard_tx` looks at one byte of the version (`C80_version_false`).

Observed, not proved: zcashd hashes 64 zero bytes for the joinsplit signature in Sprout signature hashes, where the code leaves it out;
`make_script_sig` with an empty redeem script pushes nothing; `unsigned_witness_tx` on Sprout gives a segwit-flagged `Tx`; `is_push_only`'s apparent
intent leaves out OP_1NEGATE and OP_RESERVED, which Bitcoin Core counts as pushes.

## Wrong programs

`tools/mutate.py` seeds wrong programs into a scratch copy and records in `seeded/LOG.jsonl` which theorems fail. A mutant that survives is
either equivalent (noted in the log) or leads to a tightened theorem (named in the log).

## Plan per property

(see properties.jsonl for the statements)

| property | model | proof |
|---|---|---|
| C01–C03 | `Model/Utils` | induction on the byte list / digit expansion; minimality from `256^(k-1) ≤ n` |
| C04, C05 | `Model/Utils` | search loop invariant; sign-magnitude spec; counterexample −1, negatives |
| C06–C09 | `Model/Shared` | case split on ranges, `omega`; counterexamples for non-compact forms; C09_exact: one equation for every byte string |
| C10–C14 | `Model/Script` | structural induction on tokens; fuel-free cursor loop as recursion on the suffix |
| C15 | `Model/Opcodes`, `Model/Networks` | `decide` over the finite tables (256 bytes, 72 networks), complete not sampled |
| C16–C18 | `Model/Base58` | radix-conversion lemmas, leading zeros; `encode_with_checksum` in `C16_with_checksum` |
| C19–C22 | `Model/Bech32` | GF(2)-linearity of the polymod step, injectivity; up to four errors by a complete table of the syndromes of two errors (`Lemmas/BechTable`, `CashTable`, generated by `tools/bch_tables.py` and checked against the code's own step by the kernel), after scaling by GF(32) |
| C23 | `Model/Bech32`, `Model/Cashaddr` | accumulator invariant of `convertbits`, for any two widths (`C23_padded`, `C23_unpadded`, `C23_widths`) |
| C24–C26 | `Model/Cashaddr` | same; counterexample at length multiple of 5 and for the prefix |
| C27–C32 | `Model/Addresses` | composition of the codecs; per-network table facts by `decide` |
| C33, C34 | `Model/Networks`, `Model/DynNet` | `decide` over the table; induction over call sequences; arguments of any type: `C34_any`, `C34_any_last` |
| C35, C36 | `Model/Shared` | state machine invariant |
| C37–C45 | `Model/Tx` | cursor lemmas; unique decodability; counterexamples |
| C46–C53 | `Model/Sighash` | refinement to independent BIP143 / legacy spec, relational proofs, collision extraction |
| C54–C61 | `Model/Sprout, Overwinter, Sapling` | as for Tx, plus ZIP143/ZIP243 spec |
| C62 | all classes | case analysis on constructors and network table |
| C63, C64 | `Model/Decred` | as for Tx; calls that leave arguments out in `C64_all_defaults`, `C64_single_defaults_partial` |
| C65, C66 | `Model/Blake256` | state-machine invariant relating cache/counter to the absorbed prefix |
| C67–C70 | `Model/Builder`, `Model/Simple` | composition |
| C71–C73 | `Model/Standard` | case analysis, counterexamples |
| C74 | `Model/Cashaddr` | counterexample; canonical form of own encodings |
| C75 | `Sprout`, `Overwinter`, `Sapling` | equality with an independent wire format, unique decodability |
| C76, C77 | `Overwinter`, `Sapling` | refinement to ZIP143/ZIP243, dependence and collision extraction |
| C78, C79 | `Decred`, `Utils` | collision extraction through the three nested BLAKE-256 calls |
| C80 | `Model/Standard` | exact decision by case analysis |
| C81 | `Model/Builder` | composition, injectivity |
| C82, C89 | `Model/Builder` | composition of the builder, address and parser theorems; induction on the list of payments |
| C83 | `Model/Tx`, Zcash classes | error classes by case analysis on every parser step; cursor bound by induction on the counted loops |
| C84 | `Model/Tx`, Zcash classes | walk along the serialization, case split on the part in which the cut falls; counterexamples by construction |
| C85–C87 | `Model/Addresses` | composition of the codecs; shape of the strings excludes cross-decoding; network facts by complete table; `C85_exact` and `C85_iff` by the shapes that `from_output_script` distinguishes |
| C88 | `Model/Examples` | token by token; opcode table by `decide` |
| C90 | `Model/Sighash`, `Model/Builder` | congruence of every digest step in the unsigned parts; composition with the builder theorems |
| C91 | `Model/Sighash` | prefix stripping; preimages told apart by unique decodability; counterexample for every script |
| C92 | all `Tx` code | congruence of each function in the network fields it reads; these by complete table |
| C93 | `Model/Sighash` | the preimages end in different type words |
| C94 | `Model/Networks`, `Model/Addresses` | leading base-58 digits are a quotient, which is monotone: two endpoints per version prefix decide all hashes; table complete over the networks |
| C95 | `Model/Blake256` | the text loop simulates the byte loop on the encoded text cut to the number of characters |
| C96 | `Model/Blake256` | fixed point of `final`; counterexamples by evaluation |
| C97 | `Model/Bech32`, `Model/Cashaddr` | the register after a common end determines the one before; a register's width of symbols is read off it |
| C98 | `Model/Bech32`, `Model/Cashaddr` | a zero register stays zero; the inserted symbols regroup to a legal program; counterexamples for whole classes |
| C99 | `Model/Tx`, `Spec/WireTx` | wire format injective on legal transactions; parse of a stable transaction, and what reading back its own bytes says of a transaction (`Lemmas/TxSelf`); counterexamples by evaluation |
| C100 | `Model/Alias` (every constructor; Zcash and Decred components as functions of the bytearrays' contents) | constructors on memory refine the value constructors; later memories arbitrary; bytes and ids never change; what digests, fees and copies become; counterexamples |
| C101 | `Model/ByteData` | slices against a condition on positions; first occurrence by induction; escape sequences are prefix-free (all pairs of bytes), lifted by induction |
| C102 | `Model/ExampleScripts` | the programs with parameters, composed from C29, C67, C68, C70, C88, C91, C118 |
| C103 | `Model/Addresses`, `Builder`, `Examples`, `ExampleScripts`; `Spec/Interp` | symbolic execution of the templates in the interpreter on an arbitrary stack; push-only script sigs leave items of at most 520 bytes |
| C104 | `Model/Sighash`, `Tx`; `Spec/SpendTx` | C90 (copying keeps digests), C46-C48 (digests are those of the rules) and C103 composed |
| C105 | `Model/Sprout`, `Overwinter`, `Sapling`; `Spec/SpendZcash` | C56, C60 (digests), C90's `Signs`, C103 composed; one lemma reduces the three kinds of outputs to one statement about scripts |
| C106 | `Model/Sighash`, `Tx`; `Spec/SpendTx` | as C104, from C46, C47, C49; the negation for every other input from the lengths of the preimages |
| C107 | `Model/Sighash`, `Tx`; `Spec/SpendTx` | C52 (equal committed parts give equal digests) and C104, C106 in the second transaction |
| C108 | `Model/Decred`; `Spec/SpendDecred` | C63, C64 (bytes and digests), the P2PKH template in the interpreter; counterexamples by evaluation of BLAKE-256 |
| C109 | `Model/Sprout`, `Model/Overwinter`, `Model/Sapling`; `Spec/SpendZcash` (fields and bytes) | bytes determine fields; objects built from fields; an object read from its own bytes has readable lengths; C55, C57, C58 |
| C110 | `Model/Bech32`, `Model/Cashaddr`; `Spec/Bch` (GF(32) as `GF(2)[a]/(a^5+a^3+1)`, polynomials over it, the generators as BIP 173 and the cashaddr specification print them) | one step of the bit machine is multiplication by x, addition of the symbol and reduction by the generator; induction on the message; C22, C74 |
| C111 | `Model/Addresses`; `Spec/Bch`, `Spec/Base58` | `parse` by cases, payloads by `outScript`; C18, C110, C17; network table by `decide` |
| C112 | `Model/Script`, `Model/Opcodes`; `Spec/ScriptText` (Bitcoin's names by position, words, hexadecimal, pushes) | tables compared on all 256 bytes and all names; induction on words; every byte string splits into complete items and a rest; strong induction |
| C113 | `Model/Addresses`; scripts of `Spec/Address`, Base58Check and Bech32 strings of C110/C111 | what `parse` accepts (C111), then cases on the payload; base-58 leading digits for the strings that cannot begin with the prefix |
| C114 | `Model/Dyn`; wire format of `Spec/WireTx` | exact conditions per constructor by cases on the tests; an inductive set of values that a program can make, inverted per class; equality with the typed constructors on embedded arguments |
| C115 | `Model/Dyn` | from the exact conditions of C114; witnesses for the failures |
| C116 | `Model/DynZcash`; wire format of `Spec/SpendZcash` | as C114: one lemma for constructors that only validate and append, the tests of each transaction class step by step, the digests of joinsplits from slices of their bytes |
| C117 | `Model/DynDecred`; wire format of `Spec/SpendDecred` | as C116 |
| C118 | `Model/DynCopy`, `Model/DynEmbed`; `argOr` in the statement | what each constructor keeps of its arguments (C114, C116, C117); sequences are kept as tuples, and every constructor treats a tuple as the sequence it came from |
| C119 | `Model/Dyn*`; `freeze` in the statement | every operation on values commutes with `freeze`, hence every constructor and copy |
| C120 | `Model/DynParse`; `freeze` in the statement | slices of bytes are bytes, of bytearrays bytearrays; then C114, C116, C117 `_typed` and C119 for the constructor at the end; a value without bytes gives slices without bytes, which the constructors refuse |
| C121 | `Model/DynBuilder`; `Made`, `freeze`, `txClass` in the statements | case by case: the builder ends in a constructor call on values it was given or made; then C114, C116, C117, C119 for the constructor |
| C122 | `Model/DynBuilder`; `Num`, `NotNum`, `numbers` in the statements | what `i2le_padded` does with each kind of value; what each constructor stores; false for the documented form (bytes) and for negative value balances |
| C123 | `Model/DynSighash`; `PointsTo`, `OutAt`, `IsFalse`, `Plain`, `legacyData` in the statements | a simulation between the methods on values of any type and the typed ones (`Props/DynTwin`: an object and its typed twin), then the exact results of the typed ones; false for the overloads and for values of other lengths |
| C124 | `Model/DynZSighash`; `At`, `Signed`, `IsFalse`, `zWord`, `oddPreimage143`, `oddPreimage243` in the statements, ZIP143 and ZIP243 from `Spec/Zcash` | `over_view`, `sap_view`: the attributes of an object made from anything are the fields that its bytes encode (`Props/DynZTwin`); then each part of the message on its own, and one theorem for what both classes share (`zcore_iff`, `zcore_error`); false for other hash types |
| C125 | `Model/DynApi` (the functions of the library, and programs as lists of operations); the wire formats of `Spec/*` | invariant of executions: what is held is `MadeOn` the supported networks (`Props/DynSafe`), which is closed under attributes (`Props/DynAttrs`), `from_bytes` (`Props/DynParseMade`), `copy` (C118), the builder (C121), and does not depend on the network selected now; then C114, C116 and C117 for objects made while any network was selected |
| C126 | `Model/DynSighash2`; `SproutWire`, `At`, `Byteslike`, `IsFalse` in the statements, `readVarInt` from `Spec` | `spr_view`: the attributes of an object made from anything are the fields that its bytes encode (`SproutWire.bytes_inj`); each step of `sighash_all` on such a view; false for SINGLE and ANYONECANPAY |
| C127 | `Model/DynSighash2`; `DcrWidths`, `dcrPrepared`, `dcrOne`, `dcrDigest`, `ScriptArg`, `At` in the statements, serializations from `Spec/Decred` | `dcr_view`: the attributes of an object made from anything are the fields that its bytes encode (`dcr_bytes_inj`); each step of the methods on such a view (`dcr_prep`, `dcr_acp`, `dcr_single`, `dcr_final`) |
| C128 | `Model/DynApi` (programs) with the sighash methods of C123, C124, C126, C127; `now` is the selected network with the hash functions | the exact theorems of C123, C124, C126 and C127 hold for objects made while any supported networks were selected (`MadeOn`), which is what the invariant of all programs (`run_ok` of C125) gives; `C128_replay` from the exact theorem on two networks |
| C129 | `Model/DynAddr`, `Dyn.toOutputScript` in `Model/DynBuilder`; `Byteslike`, `RawBytes`, `IsFalse`, `Truth`, `BlakeReads`, `HashReads`, `BlankBytes` in the statements | case by case on the kind of value; `orElse_some` and `found_some` reduce `from_output_script` on bytes-like values to the typed one; `C114_outpoint`, `C114_txIn` for the lengths of objects made in any way, C85 for the address of an output; `blake_text` (with C95) for texts; induction on the list for `deserialize` |
| C130 | `Model/DynChange` (`Changed`, `Reach`), `Model/DynApi`; statements as those of C125 | `GoodOn`: an object has the bytes and ids of one that can be made (`MadeOn`), its other attributes are good values; each constructor makes good objects of good values, because the bytes it reads of them are those of objects that can be made (`back_seq`, `back_obj`; the attributes are read only to be stored, and for `hsigs` and `primary_inputs`); hence each function of the API; changes keep it, by induction on `Changed` and on the size of the value; then as C125 |
| C131 | `Model/DynApi`, `Model/DynChange`; `Spec/Raises` (the table) | no others: what a program holds is good (C130), of which a joinsplit has ten attributes; then each operation of each function raises exceptions of the set only (`ErrIn`); each of them: a call with literals and lists of numbers, on a network that can be selected, evaluated for any hash (`occurs`); a program can come to hold such values (`canHold`) |
| C132 | `Model/Tx`, `Model/Sprout`, `Model/Overwinter`, `Model/Sapling` | a count that was read from enough bytes can be read again (`VarInt.len_or_short`, `parseMany_count`), and the parsed script sigs are kept (`parseScriptSig_idem`), so the parsed object is stable but for the lengths of scripts and items; then the round trips C40, C55, C57, C58; in the other case the first bad element stops the parser (`parseMany_bad`, `Tx.fromBytes_bad`, `parseInsOuts_bad`); counterexamples by evaluation |
| C133 | `Model/Dyn*`, `Model/Tx`, `Model/Sprout`, `Model/Overwinter`, `Model/Sapling` | C130 gives the transaction on the wire of the object held, whatever the program; C120 reduces `from_bytes` of an object, of bytes and of hex to the typed parser; then the exact characterisations of C99 and C109, whose fields are transferred by `tx_fields` to transactions with flag and no witnesses. `C133_sprout` does it again for the bytes a `SproutTx` has without joinsplits or signature (`sproutSent`, from C116), with the round trip C55; `C133_false` is a program whose transaction cannot be read |
| C134 | `Model/Dyn*`, `Model/Tx`, `Model/Zcash*`, `Model/Decred` | the digests as functions of the transaction on the wire (C128, for one program) are applied to both with the same transaction: for `Tx` it is determined by the bytes (`WireTx.bytes_inj`), for the others C124, C126 and C127 hold for any transaction with the bytes of the object. `C134_read` goes through the model of `from_bytes`, `C134_none` is its consequence, `C134_false` the two programs that differ |
| C135 | `Model/DynUtils` | the functions on values of any type are matched with the typed ones (C01 to C03, C06, C16 to C18), whose characterisations give equivalences: `C135_le2i`, `C135_be2i`, `C135_padded`, `C135_shortest`, `C135_base58_check`, `C135_base58_decode`, `C135_varint`; the refusals are exact (`C135_refused`, `C135_not_int`, `C135_int_refused`, `C135_base58_refused`, `C135_varint_other`, `C135_varint_range`); `C135_reversed_twice` and `C135_has_checksum` cover the other two functions. `C135_varint_length` says what the length of a `VarInt` does, `C135_varint_false` and `C135_base58_false` are the violations |
| C136 | `Model/DynBech` | the functions on values of any type are matched with the typed ones (C21, C22, C24, C110): `C136_bech32_encode`, `C136_bech32_decode`, `C136_cash_encode`, `C136_cash_decode` against the specifications of the strings; the refusals are exact (`C136_bech32_refused`, `C136_bech32_decode_refused`, `C136_cash_refused`, `C136_networks`). Negative versions: the checksum is made for another symbol than the one written, and the code detects one wrong symbol (`negative_version`) |
