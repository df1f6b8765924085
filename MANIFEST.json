{
 "claims": [
  {
   "property": "C01",
   "status": "proved",
   "theorems": [
    "Verif.Props.C01_i2le_padded_spec",
    "Verif.Props.C01_i2le_padded_range",
    "Verif.Props.C01_le2i_roundtrip"
   ],
   "note": ""
  },
  {
   "property": "C02",
   "status": "proved",
   "theorems": [
    "Verif.Props.C02_i2be_padded_spec",
    "Verif.Props.C02_i2be_padded_range",
    "Verif.Props.C02_mirror",
    "Verif.Props.C02_be2i_roundtrip"
   ],
   "note": ""
  },
  {
   "property": "C03",
   "status": "proved",
   "theorems": [
    "Verif.Props.C03_i2le_minimal",
    "Verif.Props.C03_i2be",
    "Verif.Props.C03_negative"
   ],
   "note": ""
  },
  {
   "property": "C04",
   "status": "partial",
   "theorems": [
    "Verif.Props.C04_i2le_script_partial",
    "Verif.Props.C04_too_big",
    "Verif.Props.C04_zero",
    "Verif.Props.C04_minus_one",
    "Verif.Props.C04_false"
   ],
   "note": "The full statement is false of the code at n = -1 (C04_false); C04_i2le_script_partial covers every other n, C04_too_big the error case."
  },
  {
   "property": "C05",
   "status": "partial",
   "theorems": [
    "Verif.Props.C05_positive_partial",
    "Verif.Props.C05_zero",
    "Verif.Props.C05_negative",
    "Verif.Props.C05_minus_five"
   ],
   "note": "Equality with Bitcoin script numbers for every n > 0; exact characterisation for n <= 0 (C05_negative: agreement only at -64*256^j)."
  },
  {
   "property": "C06",
   "status": "proved",
   "theorems": [
    "Verif.Props.C06_varint_is_compactsize",
    "Verif.Props.C06_varint_range",
    "Verif.Props.C06_prefix_free"
   ],
   "note": ""
  },
  {
   "property": "C07",
   "status": "proved",
   "theorems": [
    "Verif.Props.C07_from_bytes_roundtrip"
   ],
   "note": ""
  },
  {
   "property": "C08",
   "status": "partial",
   "theorems": [
    "Verif.Props.C08_compact_accepted_partial",
    "Verif.Props.C08_non_compact_rejected",
    "Verif.Props.C08_false"
   ],
   "note": "Acceptance of all compact encodings is false of the code exactly at 253, 254, 255 (C08_false); everything else is proved."
  },
  {
   "property": "C09",
   "status": "partial",
   "theorems": [
    "Verif.Props.C09_prefix_partial",
    "Verif.Props.C09_zcash",
    "Verif.Props.C09_false",
    "Verif.Props.C09_exact"
   ],
   "note": "Prefix property is false of the code for non-compact encodings off Zcash (C09_false); proved for compact encodings (C09_prefix_partial) and on Zcash networks (C09_zcash). C09_exact: what every byte string is read as, on every network."
  },
  {
   "property": "C10",
   "status": "proved",
   "theorems": [
    "Verif.Props.C10_roundtrip",
    "Verif.Props.C10_whitespace"
   ],
   "note": ""
  },
  {
   "property": "C11",
   "status": "proved",
   "theorems": [
    "Verif.Props.C11_identity_iff_minimal",
    "Verif.Props.C11_normalises",
    "Verif.Props.C11_false"
   ],
   "note": "C11_identity_iff_minimal is the exact characterisation (iff) for every byte string on every supported network; C11_false is the witness for the parenthetical remark."
  },
  {
   "property": "C12",
   "status": "proved",
   "theorems": [
    "Verif.Props.C12_push_forms",
    "Verif.Props.C12_homomorphism",
    "Verif.Props.C12_whitespace"
   ],
   "note": ""
  },
  {
   "property": "C13",
   "status": "proved",
   "theorems": [
    "Verif.Props.C13_serialize",
    "Verif.Props.C13_deserialize",
    "Verif.Props.C13_never_printed"
   ],
   "note": ""
  },
  {
   "property": "C14",
   "status": "partial",
   "theorems": [
    "Verif.Props.C14_complete_partial",
    "Verif.Props.C14_direct_rejected",
    "Verif.Props.C14_false"
   ],
   "note": "The full claim is false of the code (C14_false: 4c05aa accepted). C14_complete_partial: only a final truncated OP_PUSHDATA1/2 can slip through; C14_direct_rejected: truncated direct pushes raise IndexError."
  },
  {
   "property": "C15",
   "status": "proved",
   "theorems": [
    "Verif.Props.C15_tables_agree",
    "Verif.Props.C15_named_bytes",
    "Verif.Props.C15_decred"
   ],
   "note": ""
  },
  {
   "property": "C16",
   "status": "proved",
   "theorems": [
    "Verif.Props.C16_roundtrip",
    "Verif.Props.C16_with_checksum"
   ],
   "note": ""
  },
  {
   "property": "C17",
   "status": "proved",
   "theorems": [
    "Verif.Props.C17_canonical",
    "Verif.Props.C17_injective"
   ],
   "note": ""
  },
  {
   "property": "C18",
   "status": "proved",
   "theorems": [
    "Verif.Props.C18_accepts_iff",
    "Verif.Props.C18_only_valueError",
    "Verif.Props.C18_has_checksum"
   ],
   "note": ""
  },
  {
   "property": "C19",
   "status": "proved",
   "theorems": [
    "Verif.Props.C19_create_verifies",
    "Verif.Props.C19_unique",
    "Verif.Props.C19_roundtrip"
   ],
   "note": ""
  },
  {
   "property": "C20",
   "status": "proved",
   "theorems": [
    "Verif.Props.C20_single",
    "Verif.Props.C20_up_to_four",
    "Verif.Props.C20_address"
   ],
   "note": ""
  },
  {
   "property": "C21",
   "status": "proved",
   "theorems": [
    "Verif.Props.C21_roundtrip",
    "Verif.Props.C21_only_legal",
    "Verif.Props.C21_refusals"
   ],
   "note": "C21_refusals: exact behaviour on illegal data."
  },
  {
   "property": "C22",
   "status": "proved",
   "theorems": [
    "Verif.Props.C22_canonical",
    "Verif.Props.C22_injective",
    "Verif.Props.C22_case"
   ],
   "note": ""
  },
  {
   "property": "C23",
   "status": "proved",
   "theorems": [
    "Verif.Props.C23_roundtrip",
    "Verif.Props.C23_strict",
    "Verif.Props.C23_padded",
    "Verif.Props.C23_unpadded",
    "Verif.Props.C23_cashaddr",
    "Verif.Props.C23_widths"
   ],
   "note": ""
  },
  {
   "property": "C24",
   "status": "partial",
   "theorems": [
    "Verif.Props.C24_behaviour",
    "Verif.Props.C24_roundtrip_partial",
    "Verif.Props.C24_false"
   ],
   "note": "The full statement is false of the code exactly for non-empty payloads whose length is a multiple of five (C24_false); C24_behaviour gives the exact result for every payload."
  },
  {
   "property": "C25",
   "status": "proved",
   "theorems": [
    "Verif.Props.C25_create_verifies",
    "Verif.Props.C25_single",
    "Verif.Props.C25_up_to_four"
   ],
   "note": ""
  },
  {
   "property": "C26",
   "status": "partial",
   "theorems": [
    "Verif.Props.C26_partial",
    "Verif.Props.C26_false"
   ],
   "note": "False of the code: a longer prefix is accepted (C26_false). C26_partial proves the leading match, the single colon and the alphabet."
  },
  {
   "property": "C27",
   "status": "proved",
   "theorems": [
    "Verif.Props.C27_p2pkh",
    "Verif.Props.C27_p2sh"
   ],
   "note": ""
  },
  {
   "property": "C28",
   "status": "proved",
   "theorems": [
    "Verif.Props.C28_p2wpkh",
    "Verif.Props.C28_p2wsh",
    "Verif.Props.C28_cashaddr_p2wpkh"
   ],
   "note": "C28_p2wpkh and C28_p2wsh cover every SegWit network and hash; in the excluded Base58Check coincidence the result is a ValueError, never another script. C28_cashaddr_p2wpkh is the remark on Bitcoin Cash."
  },
  {
   "property": "C29",
   "status": "proved",
   "theorems": [
    "Verif.Props.C29_p2pkh",
    "Verif.Props.C29_p2sh",
    "Verif.Props.C29_p2sh_error",
    "Verif.Props.C29_p2wpkh",
    "Verif.Props.C29_p2wsh",
    "Verif.Props.C29_templates"
   ],
   "note": ""
  },
  {
   "property": "C30",
   "status": "partial",
   "theorems": [
    "Verif.Props.C30_legacy",
    "Verif.Props.C30_cashaddr",
    "Verif.Props.C30_segwit_partial",
    "Verif.Props.C30_false"
   ],
   "note": "Legacy and cashaddr addresses in full; bech32 witness addresses except for a Base58Check coincidence. False for base58 witness addresses on every such network and every hash (C30_false)."
  },
  {
   "property": "C31",
   "status": "proved",
   "theorems": [
    "Verif.Props.C31_to",
    "Verif.Props.C31_from"
   ],
   "note": ""
  },
  {
   "property": "C32",
   "status": "partial",
   "theorems": [
    "Verif.Props.C32_bech32_partial",
    "Verif.Props.C32_false_bech32",
    "Verif.Props.C32_base58_partial",
    "Verif.Props.C32_false_cash",
    "Verif.Props.C32_false_base58_witness"
   ],
   "note": "False of the code: C32_false_bech32 (v5, 19 bytes becomes P2SH), C32_false_cash (foreign version byte accepted), C32_false_base58_witness. The partial theorems cover every other version/length combination."
  },
  {
   "property": "C33",
   "status": "proved",
   "theorems": [
    "Verif.Props.C33_all_coherent",
    "Verif.Props.C33_lookup"
   ],
   "note": ""
  },
  {
   "property": "C34",
   "status": "proved",
   "theorems": [
    "Verif.Props.C34_any",
    "Verif.Props.C34_any_last",
    "Verif.Props.C34_last_success_wins",
    "Verif.Props.C34_select"
   ],
   "note": ""
  },
  {
   "property": "C35",
   "status": "proved",
   "theorems": [
    "Verif.Props.C35_accumulates",
    "Verif.Props.C35_freeze",
    "Verif.Props.C35_frozen_forever",
    "Verif.Props.C35_frozen_errors"
   ],
   "note": ""
  },
  {
   "property": "C36",
   "status": "proved",
   "theorems": [
    "Verif.Props.C36_eq_iff",
    "Verif.Props.C36_type_error",
    "Verif.Props.C36_equivalence"
   ],
   "note": ""
  },
  {
   "property": "C37",
   "status": "proved",
   "theorems": [
    "Verif.Props.C37_outpoint",
    "Verif.Props.C37_txin",
    "Verif.Props.C37_txout",
    "Verif.Props.C37_witness_item",
    "Verif.Props.C37_witness"
   ],
   "note": ""
  },
  {
   "property": "C38",
   "status": "partial",
   "theorems": [
    "Verif.Props.C38_outpoint",
    "Verif.Props.C38_txout",
    "Verif.Props.C38_txout_long",
    "Verif.Props.C38_witness_item",
    "Verif.Props.C38_witness",
    "Verif.Props.C38_false_txout"
   ],
   "note": "Round trips for outpoints, outputs (scripts under 252 bytes), witness items and witnesses. C38_txout_long, C38_false_txout: longer output scripts are a NotImplementedError."
  },
  {
   "property": "C39",
   "status": "proved",
   "theorems": [
    "Verif.Props.C39_roundtrip_partial",
    "Verif.Props.C39_split_total",
    "Verif.Props.C39_false",
    "Verif.Props.C39_exact",
    "Verif.Props.C39_drops"
   ],
   "note": "C39_exact is the exact condition for the round trip, both ways, with outpoint, sequence and bytes. C39_roundtrip_partial and C39_false predate it and follow; C39_drops is one way in which the trip fails."
  },
  {
   "property": "C40",
   "status": "proved",
   "theorems": [
    "Verif.Props.C40_roundtrip"
   ],
   "note": ""
  },
  {
   "property": "C41",
   "status": "proved",
   "theorems": [
    "Verif.Props.C41_wire_legacy",
    "Verif.Props.C41_wire_segwit",
    "Verif.Props.C41_injective"
   ],
   "note": ""
  },
  {
   "property": "C42",
   "status": "proved",
   "theorems": [
    "Verif.Props.C42_accepts"
   ],
   "note": ""
  },
  {
   "property": "C43",
   "status": "proved",
   "theorems": [
    "Verif.Props.C43_segwit_ids",
    "Verif.Props.C43_legacy_ids",
    "Verif.Props.C43_txid_ignores_witnesses"
   ],
   "note": ""
  },
  {
   "property": "C44",
   "status": "proved",
   "theorems": [
    "Verif.Props.C44_copy_args",
    "Verif.Props.C44_copy_args_decred",
    "Verif.Props.C44_copy_args_zcash",
    "Verif.Props.C44_copy_args_zcash_kept",
    "Verif.Props.C44_copy_identity_decred",
    "Verif.Props.C44_copy_update_decred",
    "Verif.Props.C44_copy_identity",
    "Verif.Props.C44_copy_update_txin",
    "Verif.Props.C44_copy_update_outpoint",
    "Verif.Props.C44_copy_update_txout",
    "Verif.Props.C44_copy_update_tx",
    "Verif.Props.C44_copy_identity_zcash"
   ],
   "note": "C44_copy_args, _decred, _zcash: a copy with arguments is the constructor with those arguments replaced, for every class. C44_copy_args_zcash_kept: when nothing else is forgotten."
  },
  {
   "property": "C45",
   "status": "proved",
   "theorems": [
    "Verif.Props.C45_fee_decred",
    "Verif.Props.C45_fee_balance",
    "Verif.Props.C45_fee_order",
    "Verif.Props.C45_fee_sprout",
    "Verif.Props.C45_fee_overwinter",
    "Verif.Props.C45_fee_sapling"
   ],
   "note": "Tx, Sprout, Overwinter, Sapling and Decred."
  },
  {
   "property": "C46",
   "status": "proved",
   "theorems": [
    "Verif.Props.C46_all",
    "Verif.Props.C46_single"
   ],
   "note": ""
  },
  {
   "property": "C47",
   "status": "proved",
   "theorems": [
    "Verif.Props.C47_all",
    "Verif.Props.C47_single",
    "Verif.Props.C47_value_required",
    "Verif.Props.C47_fork_ids"
   ],
   "note": ""
  },
  {
   "property": "C48",
   "status": "proved",
   "theorems": [
    "Verif.Props.C48_all",
    "Verif.Props.C48_ignores_script_sigs"
   ],
   "note": ""
  },
  {
   "property": "C49",
   "status": "partial",
   "theorems": [
    "Verif.Props.C49_last_input_partial",
    "Verif.Props.C49_false"
   ],
   "note": "Proved for the last input; for every other input the hashed bytes provably differ from the protocol's (C49_false)."
  },
  {
   "property": "C50",
   "status": "proved",
   "theorems": [
    "Verif.Props.C50_refused",
    "Verif.Props.C50_out_of_range",
    "Verif.Props.C50_segwit_types",
    "Verif.Props.C50_overwinter",
    "Verif.Props.C50_sapling"
   ],
   "note": ""
  },
  {
   "property": "C51",
   "status": "partial",
   "theorems": [
    "Verif.Props.C51_false",
    "Verif.Props.C51_forkid_partial"
   ],
   "note": "False for every parseable legacy transaction on networks without fork id (C51_false); proved on fork-id networks."
  },
  {
   "property": "C52",
   "status": "partial",
   "theorems": [
    "Verif.Props.C52_bip143",
    "Verif.Props.C52_legacy_partial",
    "Verif.Props.C52_false_legacy"
   ],
   "note": "Proved for BIP143 and for legacy except ANYONECANPAY|SINGLE, whose digest also depends on the number of inputs (C52_false_legacy)."
  },
  {
   "property": "C53",
   "status": "proved",
   "theorems": [
    "Verif.Props.C53_bip143",
    "Verif.Props.C53_legacy"
   ],
   "note": ""
  },
  {
   "property": "C54",
   "status": "proved",
   "theorems": [
    "Verif.Props.C54_sprout_zkproof_make",
    "Verif.Props.C54_sprout_zkproof_roundtrip",
    "Verif.Props.C54_sprout_zkproof_parse",
    "Verif.Props.C54_sprout_joinsplit_make",
    "Verif.Props.C54_sprout_joinsplit_roundtrip",
    "Verif.Props.C54_sprout_joinsplit_parse",
    "Verif.Props.C54_sapling_zkproof_make",
    "Verif.Props.C54_sapling_zkproof_roundtrip",
    "Verif.Props.C54_sapling_zkproof_parse",
    "Verif.Props.C54_shielded_spend_make",
    "Verif.Props.C54_shielded_spend_roundtrip",
    "Verif.Props.C54_shielded_spend_parse",
    "Verif.Props.C54_shielded_output_make",
    "Verif.Props.C54_shielded_output_roundtrip",
    "Verif.Props.C54_shielded_output_parse",
    "Verif.Props.C54_sapling_joinsplit_make",
    "Verif.Props.C54_sapling_joinsplit_roundtrip",
    "Verif.Props.C54_sapling_joinsplit_parse"
   ],
   "note": ""
  },
  {
   "property": "C55",
   "status": "partial",
   "theorems": [
    "Verif.Props.C55_roundtrip",
    "Verif.Props.C55_false_v1"
   ],
   "note": "Round trip proved for version 2; C55_false_v1: parsing a version 1 transaction is always a TypeError."
  },
  {
   "property": "C56",
   "status": "partial",
   "theorems": [
    "Verif.Props.C56_all",
    "Verif.Props.C56_all_no_inputs",
    "Verif.Props.C56_false"
   ],
   "note": "sighash_all proved exactly (C56_all, C56_all_no_inputs). C56_false: SINGLE and ANYONECANPAY are refused for every Sprout transaction, also without joinsplits."
  },
  {
   "property": "C57",
   "status": "partial",
   "theorems": [
    "Verif.Props.C57_roundtrip_partial",
    "Verif.Props.C57_false"
   ],
   "note": "C57_roundtrip_partial for fewer than 253 outputs or no joinsplits; C57_false: with joinsplits and 253 or more outputs the serialized transaction is always rejected."
  },
  {
   "property": "C58",
   "status": "partial",
   "theorems": [
    "Verif.Props.C58_roundtrip_partial",
    "Verif.Props.C58_false",
    "Verif.Props.C58_false_spends"
   ],
   "note": "C58_roundtrip_partial for fewer than 253 outputs or neither joinsplits nor shielded parts; C58_false, C58_false_spends: in every other case the serialized transaction is rejected."
  },
  {
   "property": "C59",
   "status": "partial",
   "theorems": [
    "Verif.Props.C59_sprout",
    "Verif.Props.C59_sprout_exact",
    "Verif.Props.C59_false_sprout",
    "Verif.Props.C59_overwinter",
    "Verif.Props.C59_overwinter_exact",
    "Verif.Props.C59_sapling",
    "Verif.Props.C59_sapling_exact"
   ],
   "note": "Limits and exact acceptance conditions proved for the three classes. C59_false_sprout: 'some input' fails for Sprout, version 2 needs neither inputs nor joinsplits."
  },
  {
   "property": "C60",
   "status": "proved",
   "theorems": [
    "Verif.Props.C60_overwinter",
    "Verif.Props.C60_overwinter_joinsplit",
    "Verif.Props.C60_sapling",
    "Verif.Props.C60_sapling_joinsplit"
   ],
   "note": ""
  },
  {
   "property": "C61",
   "status": "partial",
   "theorems": [
    "Verif.Props.C61_overwinter_false",
    "Verif.Props.C61_overwinter_partial",
    "Verif.Props.C61_overwinter_defaults",
    "Verif.Props.C61_sapling_false",
    "Verif.Props.C61_sapling_partial",
    "Verif.Props.C61_sapling_defaults"
   ],
   "note": "False of the code (C61_overwinter_false, C61_sapling_false): the wrappers drop anyone_can_pay. Without it they are right (partial theorems)."
  },
  {
   "property": "C62",
   "status": "proved",
   "theorems": [
    "Verif.Props.C62_decred_networks",
    "Verif.Props.C62_decred",
    "Verif.Props.C62_zcash_networks",
    "Verif.Props.C62_zcash_components",
    "Verif.Props.C62_zcash_txs"
   ],
   "note": "All Decred and Zcash constructors and parsers, for every network; the network lists are checked over the whole table."
  },
  {
   "property": "C63",
   "status": "proved",
   "theorems": [
    "Verif.Props.C63_serialize",
    "Verif.Props.C63_accepts",
    "Verif.Props.C63_id",
    "Verif.Props.C63_id_witness_free",
    "Verif.Props.C63_id_binds",
    "Verif.Props.C63_injective",
    "Verif.Props.C63_outpoint_roundtrip",
    "Verif.Props.C63_txin_roundtrip",
    "Verif.Props.C63_txout_roundtrip",
    "Verif.Props.C63_parsed"
   ],
   "note": "DecredTx.from_bytes and DecredInputWitness.from_bytes are not implemented in the code (NotImplementedError), so there is no round trip for them; C63_injective shows the bytes determine the fields."
  },
  {
   "property": "C64",
   "status": "partial",
   "theorems": [
    "Verif.Props.C64_composition",
    "Verif.Props.C64_all",
    "Verif.Props.C64_acp_partial",
    "Verif.Props.C64_acp_false",
    "Verif.Props.C64_single_composition",
    "Verif.Props.C64_single_partial",
    "Verif.Props.C64_single_false",
    "Verif.Props.C64_single_refuses",
    "Verif.Props.C64_witness_free",
    "Verif.Props.C64_acp_false_digest",
    "Verif.Props.C64_single_false_digest",
    "Verif.Props.C64_all_defaults",
    "Verif.Props.C64_single_defaults_partial"
   ],
   "note": "Violated for ANYONECANPAY with several inputs (C64_acp_false, and a computed digest C64_acp_false_digest) and for SINGLE when the signed input is not the last one (C64_single_false, C64_single_false_digest); C64_composition and C64_single_composition say exactly what is hashed. The dcrd algorithm in Spec/Decred.lean is written from memory of dcrd (no network)."
  },
  {
   "property": "C65",
   "status": "proved",
   "theorems": [
    "Verif.Props.C65_chunks",
    "Verif.Props.C65_blake_hash",
    "Verif.Props.C65_chunks_salted",
    "Verif.Props.C65_idempotent",
    "Verif.Props.C65_late_salt"
   ],
   "note": "Every variant, every list of chunks, with or without salt; the digest is computed from the absorbed message only."
  },
  {
   "property": "C66",
   "status": "proved",
   "theorems": [
    "Verif.Props.C66_blake256",
    "Verif.Props.C66_blake224",
    "Verif.Props.C66_blake384",
    "Verif.Props.C66_blake512",
    "Verif.Props.C66_salted",
    "Verif.Props.C66_length",
    "Verif.Props.C66_short_salt"
   ],
   "note": "All four variants against a specification whose constants are computed (square roots of primes, digits of pi). The code raises struct.error for messages of 2^61 bytes or more; the model truncates the length there as the specification does."
  },
  {
   "property": "C67",
   "status": "proved",
   "theorems": [
    "Verif.Props.C67_accepts",
    "Verif.Props.C67_text",
    "Verif.Props.C67_injective"
   ],
   "note": ""
  },
  {
   "property": "C68",
   "status": "proved",
   "theorems": [
    "Verif.Props.C68_outpoint",
    "Verif.Props.C68_outpoint_names_tx",
    "Verif.Props.C68_outpoint_decred",
    "Verif.Props.C68_output",
    "Verif.Props.C68_unsigned_input",
    "Verif.Props.C68_unsigned_legacy_tx",
    "Verif.Props.C68_unsigned_witness_tx"
   ],
   "note": ""
  },
  {
   "property": "C69",
   "status": "partial",
   "theorems": [
    "Verif.Props.C69_fields",
    "Verif.Props.C69_bitcoin",
    "Verif.Props.C69_overwinter",
    "Verif.Props.C69_sapling_partial",
    "Verif.Props.C69_sapling_false",
    "Verif.Props.C69_expiry_false",
    "Verif.Props.C69_balance_false",
    "Verif.Props.C69_sprout_false",
    "Verif.Props.C69_decred_false",
    "Verif.Props.C69_decred_partial"
   ],
   "note": "What make_tx returns has the fields given (C69_fields, every family). C69_bitcoin, C69_overwinter: it accepts what the class accepts. Sapling and Decred only with every optional argument given (_partial); the defaults, negative balances, Sprout joinsplits and Decred outputs always fail (_false theorems)."
  },
  {
   "property": "C70",
   "status": "partial",
   "theorems": [
    "Verif.Props.C70_script_sig",
    "Verif.Props.C70_script_sig_ends",
    "Verif.Props.C70_script_sig_text",
    "Verif.Props.C70_templates",
    "Verif.Props.C70_length_prepend_partial",
    "Verif.Props.C70_length_prepend_false"
   ],
   "note": "Script sigs and templates proved. length_prepend gives what VarInt.from_bytes reads back, except 253 to 255 bytes on Overwinter and Sapling (C70_length_prepend_false)."
  },
  {
   "property": "C71",
   "status": "partial",
   "theorems": [
    "Verif.Props.C71_accepts_partial",
    "Verif.Props.C71_false"
   ],
   "note": "False of the code: is_push_only never answers False (C71_false). C71_accepts_partial: push-only scripts are accepted."
  },
  {
   "property": "C72",
   "status": "partial",
   "theorems": [
    "Verif.Props.C72_single_partial",
    "Verif.Props.C72_false",
    "Verif.Props.C72_false_witness",
    "Verif.Props.C72_p2pk_false",
    "Verif.Props.C72_op_return_false",
    "Verif.Props.C72_is_op_return_false",
    "Verif.Props.C72_sound",
    "Verif.Props.C72_template_false"
   ],
   "note": "False of the code: no transaction with two outputs passes (C72_false, C72_false_witness), P2PK raises (C72_p2pk_false), OP_RETURN outputs are refused (C72_op_return_false). C72_single_partial: single standard outputs pass; C72_sound: exactly what an accepted transaction looks like; C72_template_false: malformed scripts that pass."
  },
  {
   "property": "C73",
   "status": "proved",
   "theorems": [
    "Verif.Props.C73_decision",
    "Verif.Props.C73_built",
    "Verif.Props.C73_monotone",
    "Verif.Props.C73_bounds"
   ],
   "note": ""
  },
  {
   "property": "C74",
   "status": "partial",
   "theorems": [
    "Verif.Props.C74_own_encoding_partial",
    "Verif.Props.C74_false",
    "Verif.Props.C74_checksum_unique",
    "Verif.Props.C74_exact",
    "Verif.Props.C74_address_strings"
   ],
   "note": "False of the code (C74_false). C74_exact characterises the accepted strings, C74_address_strings counts them for addresses, C74_own_encoding_partial: strings made by encode are canonical."
  },
  {
   "property": "C75",
   "status": "partial",
   "theorems": [
    "Verif.Props.C75_overwinter",
    "Verif.Props.C75_sapling",
    "Verif.Props.C75_sprout_partial",
    "Verif.Props.C75_false_sprout",
    "Verif.Props.C75_derived",
    "Verif.Props.C75_overwinter_injective",
    "Verif.Props.C75_sapling_injective"
   ],
   "note": "Proved for Overwinter and Sapling (with injectivity) and for Sprout except version 2 without joinsplits, where C75_false_sprout shows the extra bytes."
  },
  {
   "property": "C76",
   "status": "partial",
   "theorems": [
    "Verif.Props.C76_overwinter_partial",
    "Verif.Props.C76_overwinter_false",
    "Verif.Props.C76_sapling_partial",
    "Verif.Props.C76_sapling_false"
   ],
   "note": "False of the code without ANYONECANPAY (C76_*_false: another preimage unless the sequences hash to zero); C76_*_partial: right with ANYONECANPAY."
  },
  {
   "property": "C77",
   "status": "proved",
   "theorems": [
    "Verif.Props.C77_overwinter_depends",
    "Verif.Props.C77_overwinter_binds",
    "Verif.Props.C77_overwinter_binds_joinsplit",
    "Verif.Props.C77_sapling_depends",
    "Verif.Props.C77_sapling_binds",
    "Verif.Props.C77_sapling_binds_joinsplit"
   ],
   "note": ""
  },
  {
   "property": "C78",
   "status": "proved",
   "theorems": [
    "Verif.Props.C78_all_binds"
   ],
   "note": "The collision alternative names the three explicit pairs of hashed strings."
  },
  {
   "property": "C79",
   "status": "proved",
   "theorems": [
    "Verif.Props.C79_hashes"
   ],
   "note": ""
  },
  {
   "property": "C80",
   "status": "partial",
   "theorems": [
    "Verif.Props.C80_decision",
    "Verif.Props.C80_version_false",
    "Verif.Props.C80_size",
    "Verif.Props.C80_legacy_weight"
   ],
   "note": "Exact decision (C80_decision, C80_size). The version clause is false of the code beyond its first byte (C80_version_false)."
  },
  {
   "property": "C81",
   "status": "proved",
   "theorems": [
    "Verif.Props.C81_witness",
    "Verif.Props.C81_injective",
    "Verif.Props.C81_empty",
    "Verif.Props.C81_legacy_input",
    "Verif.Props.C81_witness_input",
    "Verif.Props.C81_decred_input",
    "Verif.Props.C81_foreign_outpoint",
    "Verif.Props.C81_decred_parts"
   ],
   "note": ""
  },
  {
   "property": "C82",
   "status": "proved",
   "theorems": [
    "Verif.Props.C82_pays",
    "Verif.Props.C82_refuses",
    "Verif.Props.C82_address"
   ],
   "note": "Decred is excluded because _make_output without version is refused there (C69)."
  },
  {
   "property": "C83",
   "status": "proved",
   "theorems": [
    "Verif.Props.C83_errors",
    "Verif.Props.C83_element_errors",
    "Verif.Props.C83_accepted",
    "Verif.Props.C83_reread",
    "Verif.Props.C83_overwinter",
    "Verif.Props.C83_sapling",
    "Verif.Props.C83_sprout"
   ],
   "note": ""
  },
  {
   "property": "C84",
   "status": "partial",
   "theorems": [
    "Verif.Props.C84_legacy",
    "Verif.Props.C84_segwit_partial",
    "Verif.Props.C84_segwit_false",
    "Verif.Props.C84_long_item_false",
    "Verif.Props.C84_sapling",
    "Verif.Props.C84_overwinter_partial",
    "Verif.Props.C84_overwinter_false",
    "Verif.Props.C84_sprout_partial",
    "Verif.Props.C84_sprout_false"
   ],
   "note": "Legacy and Sapling: proved for every cut (C84_legacy, C84_sapling). Segwit, Overwinter, Sprout: the _partial theorems refuse every cut but one, the _false theorems show that one is always accepted; C84_long_item_false shows that the bound on item sizes is needed."
  },
  {
   "property": "C85",
   "status": "partial",
   "theorems": [
    "Verif.Props.C85_partial",
    "Verif.Props.C85_false",
    "Verif.Props.C85_exact",
    "Verif.Props.C85_iff"
   ],
   "note": "False as stated for scripts that only resemble a template. C85_exact: what from_output_script gives for every script, and what the address pays to; C85_iff: exactly when it pays to the script it was read from. Witness scripts on cashaddr networks: C28_cashaddr_p2wpkh."
  },
  {
   "property": "C86",
   "status": "partial",
   "theorems": [
    "Verif.Props.C86_base58",
    "Verif.Props.C86_bech32",
    "Verif.Props.C86_cashaddr",
    "Verif.Props.C86_base58_witness_false",
    "Verif.Props.C86_kind_false",
    "Verif.Props.C86_kind_partial",
    "Verif.Props.C86_decred"
   ],
   "note": "Exact behaviour for every pair of networks: Base58Check (between networks with the same checksum hash; C86_decred: between Decred and the others always refused), Bech32, cashaddr. The kind is kept unless a version byte is shared between kinds."
  },
  {
   "property": "C87",
   "status": "proved",
   "theorems": [
    "Verif.Props.C87_make",
    "Verif.Props.C87_from",
    "Verif.Props.C87_read"
   ],
   "note": ""
  },
  {
   "property": "C88",
   "status": "partial",
   "theorems": [
    "Verif.Props.C88_msig",
    "Verif.Props.C88_outputs",
    "Verif.Props.C88_p2pkh_sig",
    "Verif.Props.C88_p2pkh_pubkey_false",
    "Verif.Props.C88_htlc",
    "Verif.Props.C88_htlc_stack_false",
    "Verif.Props.C88_msig_spend"
   ],
   "note": "Templates filled with hex of 1 to 1000 bytes. The stack templates with OP_TRUE/OP_FALSE never serialize."
  },
  {
   "property": "C89",
   "status": "proved",
   "theorems": [
    "Verif.Props.C89_own",
    "Verif.Props.C89_payments"
   ],
   "note": "OwnAddress says that to_output_script and from_output_script agree on the address; C89_own shows it of every address made from a hash (witness: unless a Base58Check string by coincidence)."
  },
  {
   "property": "C90",
   "status": "proved",
   "theorems": [
    "Verif.Props.C90_digest",
    "Verif.Props.C90_script_sigs",
    "Verif.Props.C90_witnesses",
    "Verif.Props.C90_legacy_workflow",
    "Verif.Props.C90_witness_workflow"
   ],
   "note": ""
  },
  {
   "property": "C91",
   "status": "partial",
   "theorems": [
    "Verif.Props.C91_exact",
    "Verif.Props.C91_unprefixed_never",
    "Verif.Props.C91_false",
    "Verif.Props.C91_unprefixed_false",
    "Verif.Props.C91_witness_false",
    "Verif.Props.C91_partial"
   ],
   "note": "False of the code for every script with first byte below 0xfd (C91_false, C91_unprefixed_false, C91_witness_false). C91_exact: what is signed or refused for every argument; C91_unprefixed_never: without its prefix no script gets its digest."
  },
  {
   "property": "C92",
   "status": "proved",
   "theorems": [
    "Verif.Props.C92_scripts",
    "Verif.Props.C92_transactions",
    "Verif.Props.C92_digests",
    "Verif.Props.C92_decred"
   ],
   "note": "C92_decred shows why Decred is left out."
  },
  {
   "property": "C93",
   "status": "proved",
   "theorems": [
    "Verif.Props.C93_bip143",
    "Verif.Props.C93_legacy"
   ],
   "note": "BIP143-style preimages on both sides (C93_bip143) or a legacy transaction on the network without fork id (C93_legacy)."
  },
  {
   "property": "C94",
   "status": "partial",
   "theorems": [
    "Verif.Props.C94_base58",
    "Verif.Props.C94_base58_covers",
    "Verif.Props.C94_decred_simnet_false",
    "Verif.Props.C94_bech32",
    "Verif.Props.C94_bech32_covers",
    "Verif.Props.C94_litecoin_reg_false",
    "Verif.Props.C94_base58_witness_false",
    "Verif.Props.C94_cashaddr",
    "Verif.Props.C94_cashaddr_prefixes",
    "Verif.Props.C94_cashaddr_reg_false"
   ],
   "note": "C94_base58 for all networks but decred_simnet (C94_base58_covers), C94_bech32 for all bech32 networks but litecoin_reg, C94_cashaddr; false of the code for decred_simnet, litecoin_reg, the prefix of bitcoin_cash_reg, and the witness addresses of the five networks whose segwit encoder is Base58."
  },
  {
   "property": "C95",
   "status": "partial",
   "theorems": [
    "Verif.Props.C95_text",
    "Verif.Props.C95_ascii_partial",
    "Verif.Props.C95_false"
   ],
   "note": "C95_text says exactly what is hashed. Holds for ASCII text (C95_ascii_partial), false for other text (C95_false)."
  },
  {
   "property": "C96",
   "status": "partial",
   "theorems": [
    "Verif.Props.C96_partial",
    "Verif.Props.C96_false",
    "Verif.Props.C96_empty_false",
    "Verif.Props.C96_hexdigest"
   ],
   "note": "C96_partial: digests without further updates, in any number. False of the code when updates follow (C96_false, C96_empty_false)."
  },
  {
   "property": "C97",
   "status": "proved",
   "theorems": [
    "Verif.Props.C97_bech32",
    "Verif.Props.C97_bech32_address",
    "Verif.Props.C97_cashaddr",
    "Verif.Props.C97_cashaddr_address"
   ],
   "note": "Any length; the address theorem of Bech32 covers all places including the human-readable part."
  },
  {
   "property": "C98",
   "status": "partial",
   "theorems": [
    "Verif.Props.C98_checksum",
    "Verif.Props.C98_version0_false",
    "Verif.Props.C98_later_versions_false",
    "Verif.Props.C98_partial",
    "Verif.Props.C98_cashaddr_checksum",
    "Verif.Props.C98_cashaddr_false"
   ],
   "note": "False of the code (C98_version0_false, C98_later_versions_false, C98_cashaddr_false), for every address ending in p. C98_partial: lengths of accepted version 0 addresses."
  },
  {
   "property": "C99",
   "status": "partial",
   "theorems": [
    "Verif.Props.C99_exact",
    "Verif.Props.C99_fields",
    "Verif.Props.C99_false_output",
    "Verif.Props.C99_false_misread",
    "Verif.Props.C99_false_length"
   ],
   "note": "C99_exact is an equivalence on every network; that the condition can fail on legal transactions is C99_false_output, C99_false_misread and C99_false_length."
  },
  {
   "property": "C100",
   "status": "partial",
   "theorems": [
    "Verif.Props.C100_witness",
    "Verif.Props.C100_parts",
    "Verif.Props.C100_tx",
    "Verif.Props.C100_frozen",
    "Verif.Props.C100_bytearray_false",
    "Verif.Props.C100_zcash_parts",
    "Verif.Props.C100_decred_parts",
    "Verif.Props.C100_sprout",
    "Verif.Props.C100_overwinter",
    "Verif.Props.C100_sapling",
    "Verif.Props.C100_zcash_frozen",
    "Verif.Props.C100_sprout_follows",
    "Verif.Props.C100_overwinter_follows",
    "Verif.Props.C100_sapling_follows",
    "Verif.Props.C100_decred_partial",
    "Verif.Props.C100_decred_follows",
    "Verif.Props.C100_decred_false",
    "Verif.Props.C100_zcash_bytearray_false"
   ],
   "note": "False of the code for Decred's lists (C100_decred_false) and for bytearrays (C100_bytearray_false, C100_zcash_bytearray_false). C100_tx, C100_sprout, C100_overwinter, C100_sapling and the *_parts and *_frozen theorems hold for every later memory; the *_follows theorems say exactly what digests, fee and copy become when bytearrays (and Decred's lists) are changed."
  },
  {
   "property": "C101",
   "status": "partial",
   "theorems": [
    "Verif.Props.C101_index",
    "Verif.Props.C101_slice",
    "Verif.Props.C101_find",
    "Verif.Props.C101_in_partial",
    "Verif.Props.C101_in_false",
    "Verif.Props.C101_format",
    "Verif.Props.C101_tx_hex",
    "Verif.Props.C101_repr",
    "Verif.Props.C101_repr_ascii",
    "Verif.Props.C101_repr_literal"
   ],
   "note": "All but `in` hold; C101_in_false, C101_in_partial."
  },
  {
   "property": "C102",
   "status": "partial",
   "theorems": [
    "Verif.Props.C102_op_return_partial",
    "Verif.Props.C102_op_return_digest_false",
    "Verif.Props.C102_op_return_false",
    "Verif.Props.C102_sapling_false",
    "Verif.Props.C102_htlc_partial",
    "Verif.Props.C102_htlc_false",
    "Verif.Props.C102_parsing_false",
    "Verif.Props.C102_parsing_partial"
   ],
   "note": "False of four programs. The _partial theorems say what is right in them, for all parameters."
  },
  {
   "property": "C103",
   "status": "partial",
   "theorems": [
    "Verif.Props.C103_p2pkh",
    "Verif.Props.C103_p2pkh_sig",
    "Verif.Props.C103_p2wpkh",
    "Verif.Props.C103_p2sh",
    "Verif.Props.C103_p2sh_sig",
    "Verif.Props.C103_p2sh_false",
    "Verif.Props.C103_p2wsh",
    "Verif.Props.C103_p2wsh_false",
    "Verif.Props.C103_op_return",
    "Verif.Props.C103_nested",
    "Verif.Props.C103_msig",
    "Verif.Props.C103_htlc"
   ],
   "note": "Decred is excluded. False for scripts that are too long for the network; the other theorems say who can spend, for every script sig and witness."
  },
  {
   "property": "C104",
   "status": "partial",
   "theorems": [
    "Verif.Props.C104_p2pkh",
    "Verif.Props.C104_p2wpkh",
    "Verif.Props.C104_msig",
    "Verif.Props.C104_witness_msig",
    "Verif.Props.C104_htlc",
    "Verif.Props.C104_mixed",
    "Verif.Props.C104_mixed_false"
   ],
   "note": "Hash type ALL, with or without ANYONECANPAY (SINGLE: C106). False for inputs without witness in a transaction with witnesses."
  },
  {
   "property": "C105",
   "status": "partial",
   "theorems": [
    "Verif.Props.C105_overwinter",
    "Verif.Props.C105_sapling",
    "Verif.Props.C105_sprout_partial",
    "Verif.Props.C105_sprout_false"
   ],
   "note": "Overwinter and Sapling: proved for all hash types that sighash makes (the wrappers sighash_all and sighash_single drop anyone_can_pay, C61_false). Sprout: version 1, type ALL, at most 99800 bytes; false for version 2. Branch id of Sapling only."
  },
  {
   "property": "C106",
   "status": "partial",
   "theorems": [
    "Verif.Props.C106_single_partial",
    "Verif.Props.C106_false",
    "Verif.Props.C106_false_bitcoin",
    "Verif.Props.C106_witness"
   ],
   "note": "Witness inputs and networks with fork id: proved for every input. Networks without fork id, inputs without witness: proved for the last input, proved false for every other."
  },
  {
   "property": "C107",
   "status": "partial",
   "theorems": [
    "Verif.Props.C107_witness",
    "Verif.Props.C107_forkid",
    "Verif.Props.C107_legacy_partial",
    "Verif.Props.C107_legacy_single_partial"
   ],
   "note": "Complete for witness inputs and for networks with fork id. Without fork id and witness: ALL in full; SINGLE where the digest of the first transaction is right (last input)."
  },
  {
   "property": "C108",
   "status": "partial",
   "theorems": [
    "Verif.Props.C108_p2pkh",
    "Verif.Props.C108_acp_partial",
    "Verif.Props.C108_single_partial",
    "Verif.Props.C108_false"
   ],
   "note": "P2PKH only: the interpreter of Spec/Interp is Bitcoin's, and only scripts on which dcrd's agrees are decided. ALL: every input. ALL|ANYONECANPAY with one input, SINGLE for the last input; false otherwise."
  },
  {
   "property": "C109",
   "status": "proved",
   "theorems": [
    "Verif.Props.C109_overwinter_rest",
    "Verif.Props.C109_overwinter",
    "Verif.Props.C109_sapling_rest",
    "Verif.Props.C109_sapling",
    "Verif.Props.C109_sprout",
    "Verif.Props.C109_fields_overwinter",
    "Verif.Props.C109_fields_sapling",
    "Verif.Props.C109_false_multisig",
    "Verif.Props.C109_false_sprout"
   ],
   "note": "Exact: C109_overwinter, C109_sapling and C109_sprout are equivalences, C109_*_rest say that reading succeeds whatever follows, C109_fields_* that the fields and id are those sent. That not all legal transactions are read is shown by C109_false_multisig (2-of-3 multisignature spends) and C109_false_sprout."
  },
  {
   "property": "C110",
   "status": "proved",
   "theorems": [
    "Verif.Props.C110_bech32",
    "Verif.Props.C110_bech32_create",
    "Verif.Props.C110_cash",
    "Verif.Props.C110_decode",
    "Verif.Props.C110_cash_decode"
   ],
   "note": "The specification is in Spec/Bch: GF(32) as AdjoinRoot of a^5+a^3+1 over ZMod 2 and divisibility in the polynomial ring over it; no bit operation of the code occurs in it. C110_decode is an equivalence for every string."
  },
  {
   "property": "C111",
   "status": "proved",
   "theorems": [
    "Verif.Props.C111_base58",
    "Verif.Props.C111_bech32",
    "Verif.Props.C111_cash",
    "Verif.Props.C111_unique",
    "Verif.Props.C111_odd"
   ],
   "note": "C111_base58, C111_bech32 and C111_cash are equivalences for every string and script and cover every supported network (networks_covered). The strings that no wallet makes are the witnesses of C32_false_*."
  },
  {
   "property": "C112",
   "status": "proved",
   "theorems": [
    "Verif.Props.C112_serialize",
    "Verif.Props.C112_serialize_error",
    "Verif.Props.C112_deserialize",
    "Verif.Props.C112_deserialize_error"
   ],
   "note": "Four equivalences: results and exceptions of serialize for every text, results and exceptions of deserialize for every byte string. The names are listed by position in Spec/ScriptText."
  },
  {
   "property": "C113",
   "status": "partial",
   "theorems": [
    "Verif.Props.C113_plain",
    "Verif.Props.C113_cash",
    "Verif.Props.C113_wrong",
    "Verif.Props.C113_false_upper",
    "Verif.Props.C113_false_crossed"
   ],
   "note": "C113_plain and C113_cash are equivalences for every string that to_output_script accepts: they say exactly when parse_hash returns the hash in the script. C113_wrong says what it returns otherwise. C113_false_upper and C113_false_crossed are the violations."
  },
  {
   "property": "C114",
   "status": "proved",
   "theorems": [
    "Verif.Props.C114_outpoint",
    "Verif.Props.C114_txIn",
    "Verif.Props.C114_txOut",
    "Verif.Props.C114_item",
    "Verif.Props.C114_tx_errors",
    "Verif.Props.C114_safe_in",
    "Verif.Props.C114_safe_out",
    "Verif.Props.C114_safe_witness",
    "Verif.Props.C114_safe",
    "Verif.Props.C114_witness",
    "Verif.Props.C114_tx",
    "Verif.Props.C114_typed_parts",
    "Verif.Props.C114_typed"
   ],
   "note": "C114_outpoint, C114_txIn, C114_txOut, C114_item, C114_witness and C114_tx are equivalences: which arguments are accepted and what is made of them. C114_tx_errors: which exceptions. C114_safe*: every object that can be made is the wire format of something well formed. C114_typed*: agreement with the typed model, in which the other claims are proved. Subclasses of the classes, dictionaries, floats and iterators are not represented."
  },
  {
   "property": "C115",
   "status": "partial",
   "theorems": [
    "Verif.Props.C115_same",
    "Verif.Props.C115_txIn_partial",
    "Verif.Props.C115_tx_partial",
    "Verif.Props.C115_false"
   ],
   "note": "C115_same holds without condition for Outpoint, TxOut and WitnessStackItem. For TxIn and Tx the property is false (C115_false); C115_txIn_partial and C115_tx_partial are what holds."
  },
  {
   "property": "C116",
   "status": "proved",
   "theorems": [
    "Verif.Props.C116_sproutProof",
    "Verif.Props.C116_saplingProof",
    "Verif.Props.C116_spend",
    "Verif.Props.C116_output",
    "Verif.Props.C116_joinsplit",
    "Verif.Props.C116_vpub_none",
    "Verif.Props.C116_safe_sproutJs",
    "Verif.Props.C116_safe_saplingJs",
    "Verif.Props.C116_safe_spend",
    "Verif.Props.C116_safe_output",
    "Verif.Props.C116_safe_overwinter",
    "Verif.Props.C116_safe_sapling",
    "Verif.Props.C116_safe_sprout",
    "Verif.Props.C116_overwinter",
    "Verif.Props.C116_sapling",
    "Verif.Props.C116_sprout",
    "Verif.Props.C116_typed_parts",
    "Verif.Props.C116_typed_overwinter",
    "Verif.Props.C116_typed_sapling",
    "Verif.Props.C116_typed_sprout"
   ],
   "note": "C116_sproutProof, C116_saplingProof, C116_joinsplit, C116_spend, C116_output, C116_sprout, C116_overwinter and C116_sapling are equivalences: which arguments are accepted, what is made of them, and which exceptions are raised. C116_safe_*: every object that can be made is the wire format of something well formed. C116_typed_*: agreement with the typed model, in which the other claims are proved."
  },
  {
   "property": "C117",
   "status": "proved",
   "theorems": [
    "Verif.Props.C117_tx",
    "Verif.Props.C117_outpoint",
    "Verif.Props.C117_txIn",
    "Verif.Props.C117_txOut",
    "Verif.Props.C117_witness",
    "Verif.Props.C117_safe",
    "Verif.Props.C117_typed_parts",
    "Verif.Props.C117_typed"
   ],
   "note": "C117_outpoint, C117_txIn, C117_txOut, C117_witness and C117_tx are equivalences. C117_safe: every transaction that can be made is the wire format of something well formed. C117_typed*: agreement with the typed model."
  },
  {
   "property": "C118",
   "status": "proved",
   "theorems": [
    "Verif.Props.C118_args",
    "Verif.Props.C118_args_decred",
    "Verif.Props.C118_args_zcash",
    "Verif.Props.C118_same",
    "Verif.Props.C118_made",
    "Verif.Props.C118_typed_parts",
    "Verif.Props.C118_typed"
   ],
   "note": "C118_args, _decred, _zcash: a copy is the constructor with the arguments that are not None replaced. C118_same: copy() is the same object. C118_made: copies could have been made with the constructor. C118_typed, C118_typed_parts: agreement with the typed model."
  },
  {
   "property": "C119",
   "status": "proved",
   "theorems": [
    "Verif.Props.C119_constructors",
    "Verif.Props.C119_copy"
   ],
   "note": "C119_constructors and C119_copy: replacing bytearrays by bytes in the arguments replaces them in the result."
  },
  {
   "property": "C120",
   "status": "proved",
   "theorems": [
    "Verif.Props.C120_bytes",
    "Verif.Props.C120_objects",
    "Verif.Props.C120_bytearrays",
    "Verif.Props.C120_refused",
    "Verif.Props.C120_varint",
    "Verif.Props.C120_witness",
    "Verif.Props.C120_kept"
   ],
   "note": "C120_bytes: agreement with the typed parsers. C120_objects, C120_bytearrays: objects and bytearrays are read as bytes. C120_refused: all else is refused, but for lists given to VarInt (C120_varint) and InputWitness (C120_witness). C120_kept: an input read from a bytearray keeps bytearrays."
  },
  {
   "property": "C121",
   "status": "proved",
   "theorems": [
    "Verif.Props.C121_made",
    "Verif.Props.C121_made_simple",
    "Verif.Props.C121_class",
    "Verif.Props.C121_typed_outputs",
    "Verif.Props.C121_typed_inputs",
    "Verif.Props.C121_typed_witness_input",
    "Verif.Props.C121_length_prepend",
    "Verif.Props.C121_typed_tx",
    "Verif.Props.C121_typed_decred",
    "Verif.Props.C121_typed_simple",
    "Verif.Props.C121_bytearray",
    "Verif.Props.C121_bytearray_simple"
   ],
   "note": "C121_made, C121_made_simple: what is returned could have been made with the constructors. C121_class: its class. C121_typed_*: agreement with the typed model. C121_length_prepend: length_prepend of any value. C121_bytearray, C121_bytearray_simple: bytearrays are read as bytes. Not modelled with arguments of any type: make_sh_script_pubkey called directly, make_script_sig, the address of simple.output."
  },
  {
   "property": "C122",
   "status": "partial",
   "theorems": [
    "Verif.Props.C122_outputs",
    "Verif.Props.C122_inputs",
    "Verif.Props.C122_make_tx",
    "Verif.Props.C122_refused",
    "Verif.Props.C122_ignored",
    "Verif.Props.C122_documented_false",
    "Verif.Props.C122_negative_balance_false"
   ],
   "note": "Proved: integers in range end up in the object (C122_outputs, C122_inputs, C122_make_tx), everything else is refused in order and with the stated exceptions (C122_refused), unused arguments are ignored (C122_ignored). False: the documented form is refused (C122_documented_false), and so are negative value balances (C122_negative_balance_false)."
  },
  {
   "property": "C123",
   "status": "partial",
   "theorems": [
    "Verif.Props.C123_witness",
    "Verif.Props.C123_forkid",
    "Verif.Props.C123_legacy",
    "Verif.Props.C123_index",
    "Verif.Props.C123_overload_false",
    "Verif.Props.C123_value_false"
   ],
   "note": "C123_witness, C123_forkid, C123_legacy: exactly when there is a digest, and which. C123_index: the exception for an index that is no integer. False: the declared overload (C123_overload_false) and the length of the value (C123_value_false). The sighash methods of Overwinter and Sapling are in C124; those of Sprout and Decred in C126 and C127."
  },
  {
   "property": "C124",
   "status": "partial",
   "theorems": [
    "Verif.Props.C124_overwinter",
    "Verif.Props.C124_sapling",
    "Verif.Props.C124_refused",
    "Verif.Props.C124_overwinter_methods",
    "Verif.Props.C124_sapling_methods",
    "Verif.Props.C124_overwinter_type_false",
    "Verif.Props.C124_sapling_type_false"
   ],
   "note": "C124_overwinter, C124_sapling: exactly when there is a digest, and which. C124_refused: the exceptions. C124_overwinter_methods, C124_sapling_methods: sighash_all and sighash_single, whatever anyone_can_pay is. False for hash types other than ALL, NONE and SINGLE (C124_overwinter_type_false, C124_sapling_type_false); for NONE see C76."
  },
  {
   "property": "C125",
   "status": "proved",
   "theorems": [
    "Verif.Props.C125_tx",
    "Verif.Props.C125_overwinter",
    "Verif.Props.C125_sapling",
    "Verif.Props.C125_sprout",
    "Verif.Props.C125_decred",
    "Verif.Props.C125_parts",
    "Verif.Props.C125_small"
   ],
   "note": "C125_tx, C125_overwinter, C125_sapling, C125_sprout, C125_decred: the transactions; C125_parts, C125_small: everything else. Invariant of all executions (run_ok): what a program holds can be made with the constructors on the supported networks, and a supported network is selected. A program changes no list or bytearray after it was made (for that see C130)."
  },
  {
   "property": "C126",
   "status": "partial",
   "theorems": [
    "Verif.Props.C126_all",
    "Verif.Props.C126_index",
    "Verif.Props.C126_false",
    "Verif.Props.C126_fields"
   ],
   "note": "C126_all: exactly when there is a digest, and which. C126_index: the exceptions for an index. C126_fields: every object has such fields, and only one choice. C126_false: SINGLE always refuses with ValueError, ANYONECANPAY wherever ALL would succeed (the tuple of joinsplits is compared with None, C56)."
  },
  {
   "property": "C127",
   "status": "proved",
   "theorems": [
    "Verif.Props.C127_all",
    "Verif.Props.C127_single",
    "Verif.Props.C127_refused",
    "Verif.Props.C127_fields"
   ],
   "note": "C127_all, C127_single: exactly when there is a digest, and which. C127_refused: the exceptions. C127_fields: every object has such fields, and only one choice. That this digest is not the one of dcrd for SINGLE and ANYONECANPAY is C64."
  },
  {
   "property": "C128",
   "status": "proved",
   "theorems": [
    "Verif.Props.C128_selected",
    "Verif.Props.C128_tx",
    "Verif.Props.C128_overwinter",
    "Verif.Props.C128_sapling",
    "Verif.Props.C128_sprout",
    "Verif.Props.C128_decred",
    "Verif.Props.C128_replay"
   ],
   "note": "C128_tx, C128_overwinter, C128_sapling, C128_sprout, C128_decred: exactly when there is a digest, and which, at any point of any program. C128_selected: which network is selected. C128_replay: the digest of a Tx is the same on networks without a fork id that share the hash function and the rule for numbers."
  },
  {
   "property": "C129",
   "status": "partial",
   "theorems": [
    "Verif.Props.C129_from_script",
    "Verif.Props.C129_from_script_refused",
    "Verif.Props.C129_inputs_refused",
    "Verif.Props.C129_output",
    "Verif.Props.C129_output_false",
    "Verif.Props.C129_address",
    "Verif.Props.C129_script_type",
    "Verif.Props.C129_pkh_address",
    "Verif.Props.C129_pkh_address_partial",
    "Verif.Props.C129_pkh_address_false",
    "Verif.Props.C129_sh_script",
    "Verif.Props.C129_sh_address",
    "Verif.Props.C129_script_sig",
    "Verif.Props.C129_script_sig_negative",
    "Verif.Props.C129_script_sig_refused",
    "Verif.Props.C129_script_sig_false",
    "Verif.Props.C129_deserialize",
    "Verif.Props.C129_hex_deserialize"
   ],
   "note": "C129_address: functions that read addresses. C129_from_script, C129_from_script_refused, C129_inputs_refused, C129_output: from_output_script; C129_output_false: outputs whose value begins with 00 20 get a wrong address. C129_pkh_address, C129_sh_script, C129_sh_address: exactly what is accepted, and as what; C129_pkh_address_partial: networks other than Decred; C129_pkh_address_false: Decred. C129_script_sig, C129_script_sig_refused; C129_script_sig_false: numbers are read as hex. C129_deserialize, C129_hex_deserialize. C129_script_type, C129_script_sig_negative: what make_script_sig raises."
  },
  {
   "property": "C130",
   "status": "proved",
   "theorems": [
    "Verif.Props.C130_tx",
    "Verif.Props.C130_overwinter",
    "Verif.Props.C130_sapling",
    "Verif.Props.C130_sprout",
    "Verif.Props.C130_decred",
    "Verif.Props.C130_parts",
    "Verif.Props.C130_small"
   ],
   "note": "C130_tx, C130_overwinter, C130_sapling, C130_sprout, C130_decred: the transactions; C130_parts, C130_small: everything else. Invariant of all reachable states (reach_good): an object a program holds has the bytes and ids of one that the constructors make of suitable arguments, whatever became of its other attributes. The changes of the model (Changed) are those that values shared in any way could undergo, and more; lists that contain themselves are left out."
  },
  {
   "property": "C131",
   "status": "proved",
   "theorems": [
    "Verif.Props.C131_raises",
    "Verif.Props.C131_copy"
   ],
   "note": "C131_raises: the table Spec.excs, of all functions but copy; both directions, for every hash. C131_copy: copy of any object a program holds. The AttributeError that a missing method and the TypeError that a wrong number of arguments gives are left out."
  },
  {
   "property": "C132",
   "status": "proved",
   "theorems": [
    "Verif.Props.C132_tx",
    "Verif.Props.C132_tx_other",
    "Verif.Props.C132_sprout",
    "Verif.Props.C132_overwinter",
    "Verif.Props.C132_sapling",
    "Verif.Props.C132_false",
    "Verif.Props.C132_false_zcash",
    "Verif.Props.C132_false_split"
   ],
   "note": "C132_tx, C132_sprout, C132_overwinter, C132_sapling: when the second reading succeeds and what it keeps, and that it raises ValueError otherwise; both directions, so the property with its exceptions is proved. C132_false, C132_false_zcash: bytes read once and not twice, on Overwinter and Sapling networks. C132_false_split: the split of a script sig can change at the second reading."
  },
  {
   "property": "C133",
   "status": "proved",
   "theorems": [
    "Verif.Props.C133_tx",
    "Verif.Props.C133_false",
    "Verif.Props.C133_overwinter",
    "Verif.Props.C133_sapling",
    "Verif.Props.C133_sprout"
   ],
   "note": "C133_tx, C133_overwinter, C133_sapling, C133_sprout: both directions, and the fields. C133_false: a program that holds a transaction nobody can read (one of the exceptions in the statement)."
  },
  {
   "property": "C134",
   "status": "proved",
   "theorems": [
    "Verif.Props.C134_tx",
    "Verif.Props.C134_overwinter",
    "Verif.Props.C134_sapling",
    "Verif.Props.C134_sprout",
    "Verif.Props.C134_decred",
    "Verif.Props.C134_read",
    "Verif.Props.C134_none",
    "Verif.Props.C134_false"
   ],
   "note": "C134_tx, C134_overwinter, C134_sapling, C134_sprout, C134_decred: equal digests. C134_read, C134_none, C134_false: the exception in the statement."
  },
  {
   "property": "C135",
   "status": "proved",
   "theorems": [
    "Verif.Props.C135_le2i",
    "Verif.Props.C135_be2i",
    "Verif.Props.C135_refused",
    "Verif.Props.C135_mirror",
    "Verif.Props.C135_padded",
    "Verif.Props.C135_shortest",
    "Verif.Props.C135_base58_check",
    "Verif.Props.C135_base58_plain",
    "Verif.Props.C135_base58_refused",
    "Verif.Props.C135_base58_decode",
    "Verif.Props.C135_base58_false",
    "Verif.Props.C135_varint",
    "Verif.Props.C135_varint_length",
    "Verif.Props.C135_varint_false",
    "Verif.Props.C135_varint_other",
    "Verif.Props.C135_not_int",
    "Verif.Props.C135_int_refused",
    "Verif.Props.C135_reversed_twice",
    "Verif.Props.C135_has_checksum",
    "Verif.Props.C135_varint_range"
   ],
   "note": "C135_varint_false and C135_base58_false are the two exceptions in the statement; the other theorems are equivalences or exact refusals. hash160 and the other functions on values of any type: C129."
  },
  {
   "property": "C136",
   "status": "proved",
   "theorems": [
    "Verif.Props.C136_bech32_encode",
    "Verif.Props.C136_bech32_refused",
    "Verif.Props.C136_bech32_decode",
    "Verif.Props.C136_bech32_decode_refused",
    "Verif.Props.C136_cash_encode",
    "Verif.Props.C136_cash_refused",
    "Verif.Props.C136_cash_decode",
    "Verif.Props.C136_networks"
   ],
   "note": "Equivalences for the results and the refusals; C110 has the specification of the strings."
  }
 ]
}