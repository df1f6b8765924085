Verif.Props.C01_i2le_padded_spec: propext, Classical.choice, Quot.sound
Verif.Props.C01_i2le_padded_range: none
Verif.Props.C01_le2i_roundtrip: propext, Classical.choice, Quot.sound
Verif.Props.C02_i2be_padded_spec: propext, Classical.choice, Quot.sound
Verif.Props.C02_i2be_padded_range: none
Verif.Props.C02_mirror: propext
Verif.Props.C02_be2i_roundtrip: propext, Classical.choice, Quot.sound
Verif.Props.C03_i2le_minimal: propext, Classical.choice, Quot.sound
Verif.Props.C03_i2be: propext
Verif.Props.C03_negative: propext, Classical.choice, Quot.sound
Verif.Props.C04_i2le_script_partial: propext, Classical.choice, Quot.sound
Verif.Props.C04_too_big: propext, Classical.choice, Quot.sound
Verif.Props.C04_zero: propext
Verif.Props.C04_minus_one: propext
Verif.Props.C04_false: propext, Classical.choice, Quot.sound
Verif.Props.C05_positive_partial: propext, Classical.choice, Quot.sound
Verif.Props.C05_zero: propext
Verif.Props.C05_negative: propext, Classical.choice, Quot.sound
Verif.Props.C05_minus_five: propext
Verif.Props.C06_varint_is_compactsize: propext, Classical.choice, Quot.sound
Verif.Props.C06_varint_range: propext, Classical.choice, Quot.sound
Verif.Props.C06_prefix_free: propext, Classical.choice, Quot.sound
Verif.Props.C07_from_bytes_roundtrip: propext, Classical.choice, Quot.sound
Verif.Props.C08_compact_accepted_partial: propext, Classical.choice, Quot.sound
Verif.Props.C08_non_compact_rejected: propext, Classical.choice, Quot.sound
Verif.Props.C08_false: propext, Classical.choice, Quot.sound
Verif.Props.C09_prefix_partial: propext, Classical.choice, Quot.sound
Verif.Props.C09_zcash: propext, Classical.choice, Quot.sound
Verif.Props.C09_false: none
Verif.Props.C09_exact: propext, Classical.choice, Quot.sound
Verif.Props.C10_roundtrip: propext, Classical.choice, Quot.sound
Verif.Props.C10_whitespace: propext, Quot.sound
Verif.Props.C11_identity_iff_minimal: propext, Classical.choice, Quot.sound
Verif.Props.C11_normalises: propext, Classical.choice, Quot.sound
Verif.Props.C11_false: propext
Verif.Props.C12_push_forms: propext, Classical.choice, Quot.sound
Verif.Props.C12_homomorphism: propext, Quot.sound
Verif.Props.C12_whitespace: propext, Classical.choice, Quot.sound
Verif.Props.C13_serialize: propext, Quot.sound
Verif.Props.C13_deserialize: propext, Quot.sound
Verif.Props.C13_never_printed: propext, Quot.sound
Verif.Props.C14_complete_partial: propext, Quot.sound
Verif.Props.C14_direct_rejected: propext, Quot.sound
Verif.Props.C14_false: propext, Quot.sound
Verif.Props.C15_tables_agree: propext, Quot.sound
Verif.Props.C15_named_bytes: propext, Quot.sound
Verif.Props.C15_decred: propext
Verif.Props.C16_roundtrip: propext, Classical.choice, Quot.sound
Verif.Props.C16_with_checksum: propext, Classical.choice, Quot.sound
Verif.Props.C17_canonical: propext, Classical.choice, Quot.sound
Verif.Props.C17_injective: propext, Classical.choice, Quot.sound
Verif.Props.C18_accepts_iff: propext, Classical.choice, Quot.sound
Verif.Props.C18_only_valueError: propext, Classical.choice, Quot.sound
Verif.Props.C18_has_checksum: propext, Classical.choice, Quot.sound
Verif.Props.C19_create_verifies: propext, Classical.choice, Quot.sound
Verif.Props.C19_unique: propext, Classical.choice, Quot.sound
Verif.Props.C19_roundtrip: propext, Classical.choice, Quot.sound
Verif.Props.C20_single: propext, Classical.choice, Quot.sound
Verif.Props.C20_up_to_four: propext, Classical.choice, Quot.sound
Verif.Props.C20_address: propext, Classical.choice, Quot.sound
Verif.Props.C21_roundtrip: propext, Classical.choice, Quot.sound
Verif.Props.C21_only_legal: propext, Classical.choice, Quot.sound
Verif.Props.C21_refusals: propext, Classical.choice, Quot.sound
Verif.Props.C22_canonical: propext, Classical.choice, Quot.sound
Verif.Props.C22_injective: propext, Classical.choice, Quot.sound
Verif.Props.C22_case: propext, Classical.choice, Quot.sound
Verif.Props.C23_roundtrip: propext, Classical.choice, Quot.sound
Verif.Props.C23_strict: propext, Classical.choice, Quot.sound
Verif.Props.C23_padded: propext, Classical.choice, Quot.sound
Verif.Props.C23_unpadded: propext, Classical.choice, Quot.sound
Verif.Props.C23_cashaddr: propext, Classical.choice, Quot.sound
Verif.Props.C23_widths: propext, Classical.choice, Quot.sound
Verif.Props.C24_behaviour: propext, Classical.choice, Quot.sound
Verif.Props.C24_roundtrip_partial: propext, Classical.choice, Quot.sound
Verif.Props.C24_false: propext, Classical.choice, Quot.sound
Verif.Props.C25_create_verifies: propext, Classical.choice, Quot.sound
Verif.Props.C25_single: propext, Classical.choice, Quot.sound
Verif.Props.C25_up_to_four: propext, Classical.choice, Quot.sound
Verif.Props.C26_partial: propext, Classical.choice, Quot.sound
Verif.Props.C26_false: propext, Quot.sound
Verif.Props.C27_p2pkh: propext, Classical.choice, Quot.sound
Verif.Props.C27_p2sh: propext, Classical.choice, Quot.sound
Verif.Props.C28_p2wpkh: propext, Classical.choice, Quot.sound
Verif.Props.C28_p2wsh: propext, Classical.choice, Quot.sound
Verif.Props.C28_cashaddr_p2wpkh: propext, Classical.choice, Quot.sound
Verif.Props.C29_p2pkh: propext, Classical.choice, Quot.sound
Verif.Props.C29_p2sh: propext, Classical.choice, Quot.sound
Verif.Props.C29_p2sh_error: propext, Quot.sound
Verif.Props.C29_p2wpkh: propext, Classical.choice, Quot.sound
Verif.Props.C29_p2wsh: propext, Classical.choice, Quot.sound
Verif.Props.C29_templates: propext, Quot.sound
Verif.Props.C30_legacy: propext, Classical.choice, Quot.sound
Verif.Props.C30_cashaddr: propext, Classical.choice, Quot.sound
Verif.Props.C30_segwit_partial: propext, Classical.choice, Quot.sound
Verif.Props.C30_false: propext, Classical.choice, Quot.sound
Verif.Props.C31_to: propext, Classical.choice, Quot.sound
Verif.Props.C31_from: propext, Quot.sound
Verif.Props.C32_bech32_partial: propext, Classical.choice, Quot.sound
Verif.Props.C32_false_bech32: propext, Classical.choice, Quot.sound
Verif.Props.C32_base58_partial: propext, Quot.sound
Verif.Props.C32_false_cash: propext, Classical.choice, Quot.sound
Verif.Props.C32_false_base58_witness: propext, Classical.choice, Quot.sound
Verif.Props.C33_all_coherent: propext, Quot.sound
Verif.Props.C33_lookup: propext
Verif.Props.C34_any: propext, Classical.choice, Quot.sound
Verif.Props.C34_any_last: propext, Quot.sound
Verif.Props.C34_last_success_wins: propext, Quot.sound
Verif.Props.C34_select: propext, Quot.sound
Verif.Props.C35_accumulates: propext
Verif.Props.C35_freeze: propext
Verif.Props.C35_frozen_forever: propext, Quot.sound
Verif.Props.C35_frozen_errors: propext
Verif.Props.C36_eq_iff: propext
Verif.Props.C36_type_error: propext
Verif.Props.C36_equivalence: propext
Verif.Props.C37_outpoint: propext, Quot.sound
Verif.Props.C37_txin: propext, Classical.choice, Quot.sound
Verif.Props.C37_txout: propext, Classical.choice, Quot.sound
Verif.Props.C37_witness_item: propext, Classical.choice, Quot.sound
Verif.Props.C37_witness: propext, Classical.choice, Quot.sound
Verif.Props.C38_outpoint: propext, Quot.sound
Verif.Props.C38_txout: propext, Classical.choice, Quot.sound
Verif.Props.C38_txout_long: propext, Classical.choice, Quot.sound
Verif.Props.C38_witness_item: propext, Classical.choice, Quot.sound
Verif.Props.C38_witness: propext, Classical.choice, Quot.sound
Verif.Props.C38_false_txout: propext, Classical.choice, Quot.sound
Verif.Props.C39_roundtrip_partial: propext, Classical.choice, Quot.sound
Verif.Props.C39_split_total: propext, Classical.choice, Quot.sound
Verif.Props.C39_false: propext
Verif.Props.C39_exact: propext, Classical.choice, Quot.sound
Verif.Props.C39_drops: propext, Classical.choice, Quot.sound
Verif.Props.C40_roundtrip: propext, Classical.choice, Quot.sound
Verif.Props.C41_wire_legacy: propext, Classical.choice, Quot.sound
Verif.Props.C41_wire_segwit: propext, Classical.choice, Quot.sound
Verif.Props.C41_injective: propext, Classical.choice, Quot.sound
Verif.Props.C42_accepts: propext, Classical.choice, Quot.sound
Verif.Props.C43_segwit_ids: propext, Classical.choice, Quot.sound
Verif.Props.C43_legacy_ids: propext, Classical.choice, Quot.sound
Verif.Props.C43_txid_ignores_witnesses: propext, Classical.choice, Quot.sound
Verif.Props.C44_copy_args: propext, Classical.choice, Quot.sound
Verif.Props.C44_copy_args_decred: propext, Classical.choice, Quot.sound
Verif.Props.C44_copy_args_zcash: propext, Classical.choice, Quot.sound
Verif.Props.C44_copy_args_zcash_kept: propext, Classical.choice, Quot.sound
Verif.Props.C44_copy_identity_decred: propext, Classical.choice, Quot.sound
Verif.Props.C44_copy_update_decred: propext, Classical.choice, Quot.sound
Verif.Props.C44_copy_identity: propext, Classical.choice, Quot.sound
Verif.Props.C44_copy_update_txin: propext, Classical.choice, Quot.sound
Verif.Props.C44_copy_update_outpoint: propext, Quot.sound
Verif.Props.C44_copy_update_txout: propext, Classical.choice, Quot.sound
Verif.Props.C44_copy_update_tx: propext, Classical.choice, Quot.sound
Verif.Props.C44_copy_identity_zcash: propext, Classical.choice, Quot.sound
Verif.Props.C45_fee_decred: propext, Quot.sound
Verif.Props.C45_fee_balance: propext, Quot.sound
Verif.Props.C45_fee_order: propext, Quot.sound
Verif.Props.C45_fee_sprout: propext, Quot.sound
Verif.Props.C45_fee_overwinter: propext, Quot.sound
Verif.Props.C45_fee_sapling: propext, Quot.sound
Verif.Props.C46_all: propext, Classical.choice, Quot.sound
Verif.Props.C46_single: propext, Classical.choice, Quot.sound
Verif.Props.C47_all: propext, Classical.choice, Quot.sound
Verif.Props.C47_single: propext, Classical.choice, Quot.sound
Verif.Props.C47_value_required: propext, Quot.sound
Verif.Props.C47_fork_ids: propext
Verif.Props.C48_all: propext, Classical.choice, Quot.sound
Verif.Props.C48_ignores_script_sigs: propext, Classical.choice, Quot.sound
Verif.Props.C49_last_input_partial: propext, Classical.choice, Quot.sound
Verif.Props.C49_false: propext, Classical.choice, Quot.sound
Verif.Props.C50_refused: propext, Quot.sound
Verif.Props.C50_out_of_range: propext, Classical.choice, Quot.sound
Verif.Props.C50_segwit_types: propext, Classical.choice, Quot.sound
Verif.Props.C50_overwinter: propext, Classical.choice, Quot.sound
Verif.Props.C50_sapling: propext, Classical.choice, Quot.sound
Verif.Props.C51_false: propext, Classical.choice, Quot.sound
Verif.Props.C51_forkid_partial: propext, Classical.choice, Quot.sound
Verif.Props.C52_bip143: propext, Classical.choice, Quot.sound
Verif.Props.C52_legacy_partial: propext, Classical.choice, Quot.sound
Verif.Props.C52_false_legacy: propext, Classical.choice, Quot.sound
Verif.Props.C53_bip143: propext, Classical.choice, Quot.sound
Verif.Props.C53_legacy: propext, Classical.choice, Quot.sound
Verif.Props.C54_sprout_zkproof_make: propext, Quot.sound
Verif.Props.C54_sprout_zkproof_roundtrip: propext, Quot.sound
Verif.Props.C54_sprout_zkproof_parse: propext, Quot.sound
Verif.Props.C54_sprout_joinsplit_make: propext, Quot.sound
Verif.Props.C54_sprout_joinsplit_roundtrip: propext, Quot.sound
Verif.Props.C54_sprout_joinsplit_parse: propext, Classical.choice, Quot.sound
Verif.Props.C54_sapling_zkproof_make: propext, Quot.sound
Verif.Props.C54_sapling_zkproof_roundtrip: propext, Quot.sound
Verif.Props.C54_sapling_zkproof_parse: propext, Quot.sound
Verif.Props.C54_shielded_spend_make: propext, Quot.sound
Verif.Props.C54_shielded_spend_roundtrip: propext, Quot.sound
Verif.Props.C54_shielded_spend_parse: propext, Quot.sound
Verif.Props.C54_shielded_output_make: propext, Quot.sound
Verif.Props.C54_shielded_output_roundtrip: propext, Quot.sound
Verif.Props.C54_shielded_output_parse: propext, Quot.sound
Verif.Props.C54_sapling_joinsplit_make: propext, Quot.sound
Verif.Props.C54_sapling_joinsplit_roundtrip: propext, Quot.sound
Verif.Props.C54_sapling_joinsplit_parse: propext, Classical.choice, Quot.sound
Verif.Props.C55_roundtrip: propext, Classical.choice, Quot.sound
Verif.Props.C55_false_v1: propext, Classical.choice, Quot.sound
Verif.Props.C56_all: propext, Classical.choice, Quot.sound
Verif.Props.C56_all_no_inputs: propext, Classical.choice, Quot.sound
Verif.Props.C56_false: propext, Quot.sound
Verif.Props.C57_roundtrip_partial: propext, Classical.choice, Quot.sound
Verif.Props.C57_false: propext, Classical.choice, Quot.sound
Verif.Props.C58_roundtrip_partial: propext, Classical.choice, Quot.sound
Verif.Props.C58_false: propext, Classical.choice, Quot.sound
Verif.Props.C58_false_spends: propext, Classical.choice, Quot.sound
Verif.Props.C59_sprout: propext, Classical.choice, Quot.sound
Verif.Props.C59_sprout_exact: propext, Classical.choice, Quot.sound
Verif.Props.C59_false_sprout: propext, Classical.choice, Quot.sound
Verif.Props.C59_overwinter: propext, Classical.choice, Quot.sound
Verif.Props.C59_overwinter_exact: propext, Classical.choice, Quot.sound
Verif.Props.C59_sapling: propext, Classical.choice, Quot.sound
Verif.Props.C59_sapling_exact: propext, Classical.choice, Quot.sound
Verif.Props.C60_overwinter: propext, Classical.choice, Quot.sound
Verif.Props.C60_overwinter_joinsplit: propext, Classical.choice, Quot.sound
Verif.Props.C60_sapling: propext, Classical.choice, Quot.sound
Verif.Props.C60_sapling_joinsplit: propext, Classical.choice, Quot.sound
Verif.Props.C61_overwinter_false: propext, Classical.choice, Quot.sound
Verif.Props.C61_overwinter_partial: propext, Classical.choice, Quot.sound
Verif.Props.C61_overwinter_defaults: propext, Classical.choice, Quot.sound
Verif.Props.C61_sapling_false: propext, Classical.choice, Quot.sound
Verif.Props.C61_sapling_partial: propext, Classical.choice, Quot.sound
Verif.Props.C61_sapling_defaults: propext, Classical.choice, Quot.sound
Verif.Props.C62_decred_networks: propext
Verif.Props.C62_decred: propext, Quot.sound
Verif.Props.C62_zcash_networks: propext
Verif.Props.C62_zcash_components: propext, Classical.choice, Quot.sound
Verif.Props.C62_zcash_txs: propext, Quot.sound
Verif.Props.C63_serialize: propext, Classical.choice, Quot.sound
Verif.Props.C63_accepts: propext, Classical.choice, Quot.sound
Verif.Props.C63_id: propext, Classical.choice, Quot.sound
Verif.Props.C63_id_witness_free: propext, Classical.choice, Quot.sound
Verif.Props.C63_id_binds: propext, Classical.choice, Quot.sound
Verif.Props.C63_injective: propext, Classical.choice, Quot.sound
Verif.Props.C63_outpoint_roundtrip: propext, Quot.sound
Verif.Props.C63_txin_roundtrip: propext, Quot.sound
Verif.Props.C63_txout_roundtrip: propext, Classical.choice, Quot.sound
Verif.Props.C63_parsed: propext, Quot.sound
Verif.Props.C64_composition: propext, Classical.choice, Quot.sound
Verif.Props.C64_all: propext, Classical.choice, Quot.sound
Verif.Props.C64_acp_partial: propext, Classical.choice, Quot.sound
Verif.Props.C64_acp_false: propext, Classical.choice, Quot.sound
Verif.Props.C64_single_composition: propext, Classical.choice, Quot.sound
Verif.Props.C64_single_partial: propext, Classical.choice, Quot.sound
Verif.Props.C64_single_false: propext, Classical.choice, Quot.sound
Verif.Props.C64_single_refuses: propext, Classical.choice, Quot.sound
Verif.Props.C64_witness_free: propext, Classical.choice, Quot.sound
Verif.Props.C64_acp_false_digest: propext, Quot.sound
Verif.Props.C64_single_false_digest: propext, Quot.sound
Verif.Props.C64_all_defaults: propext, Classical.choice, Quot.sound
Verif.Props.C64_single_defaults_partial: propext, Classical.choice, Quot.sound
Verif.Props.C65_chunks: propext, Classical.choice, Quot.sound
Verif.Props.C65_blake_hash: propext, Classical.choice, Quot.sound
Verif.Props.C65_chunks_salted: propext, Classical.choice, Quot.sound
Verif.Props.C65_idempotent: propext, Quot.sound
Verif.Props.C65_late_salt: propext, Quot.sound
Verif.Props.C66_blake256: propext, Classical.choice, Quot.sound
Verif.Props.C66_blake224: propext, Classical.choice, Quot.sound
Verif.Props.C66_blake384: propext, Classical.choice, Quot.sound
Verif.Props.C66_blake512: propext, Classical.choice, Quot.sound
Verif.Props.C66_salted: propext, Classical.choice, Quot.sound
Verif.Props.C66_length: propext, Quot.sound
Verif.Props.C66_short_salt: propext, Quot.sound
Verif.Props.C67_accepts: propext, Classical.choice, Quot.sound
Verif.Props.C67_text: propext, Classical.choice, Quot.sound
Verif.Props.C67_injective: propext, Classical.choice, Quot.sound
Verif.Props.C68_outpoint: propext, Classical.choice, Quot.sound
Verif.Props.C68_outpoint_names_tx: propext, Classical.choice, Quot.sound
Verif.Props.C68_outpoint_decred: propext, Classical.choice, Quot.sound
Verif.Props.C68_output: propext, Classical.choice, Quot.sound
Verif.Props.C68_unsigned_input: propext, Classical.choice, Quot.sound
Verif.Props.C68_unsigned_legacy_tx: propext, Classical.choice, Quot.sound
Verif.Props.C68_unsigned_witness_tx: propext, Classical.choice, Quot.sound
Verif.Props.C69_fields: propext, Classical.choice, Quot.sound
Verif.Props.C69_bitcoin: propext, Classical.choice, Quot.sound
Verif.Props.C69_overwinter: propext, Classical.choice, Quot.sound
Verif.Props.C69_sapling_partial: propext, Classical.choice, Quot.sound
Verif.Props.C69_sapling_false: propext, Classical.choice, Quot.sound
Verif.Props.C69_expiry_false: propext, Classical.choice, Quot.sound
Verif.Props.C69_balance_false: propext, Classical.choice, Quot.sound
Verif.Props.C69_sprout_false: propext, Classical.choice, Quot.sound
Verif.Props.C69_decred_false: propext, Quot.sound
Verif.Props.C69_decred_partial: propext, Classical.choice, Quot.sound
Verif.Props.C70_script_sig: propext, Classical.choice, Quot.sound
Verif.Props.C70_script_sig_ends: propext, Classical.choice, Quot.sound
Verif.Props.C70_script_sig_text: propext, Classical.choice, Quot.sound
Verif.Props.C70_templates: propext, Quot.sound
Verif.Props.C70_length_prepend_partial: propext, Classical.choice, Quot.sound
Verif.Props.C70_length_prepend_false: propext, Classical.choice, Quot.sound
Verif.Props.C71_accepts_partial: propext, Classical.choice, Quot.sound
Verif.Props.C71_false: propext, Classical.choice, Quot.sound
Verif.Props.C72_single_partial: propext, Classical.choice, Quot.sound
Verif.Props.C72_false: propext, Quot.sound
Verif.Props.C72_false_witness: propext, Classical.choice, Quot.sound
Verif.Props.C72_p2pk_false: propext, Classical.choice, Quot.sound
Verif.Props.C72_op_return_false: propext, Classical.choice, Quot.sound
Verif.Props.C72_is_op_return_false: propext, Classical.choice, Quot.sound
Verif.Props.C72_sound: propext, Classical.choice, Quot.sound
Verif.Props.C72_template_false: propext, Classical.choice, Quot.sound
Verif.Props.C73_decision: propext, Classical.choice, Quot.sound
Verif.Props.C73_built: propext, Classical.choice, Quot.sound
Verif.Props.C73_monotone: propext, Classical.choice, Quot.sound
Verif.Props.C73_bounds: propext, Classical.choice, Quot.sound
Verif.Props.C74_own_encoding_partial: propext, Classical.choice, Quot.sound
Verif.Props.C74_false: propext, Quot.sound
Verif.Props.C74_checksum_unique: propext, Classical.choice, Quot.sound
Verif.Props.C74_exact: propext, Classical.choice, Quot.sound
Verif.Props.C74_address_strings: propext, Classical.choice, Quot.sound
Verif.Props.C75_overwinter: propext, Classical.choice, Quot.sound
Verif.Props.C75_sapling: propext, Classical.choice, Quot.sound
Verif.Props.C75_sprout_partial: propext, Classical.choice, Quot.sound
Verif.Props.C75_false_sprout: propext, Classical.choice, Quot.sound
Verif.Props.C75_derived: propext, Classical.choice, Quot.sound
Verif.Props.C75_overwinter_injective: propext, Classical.choice, Quot.sound
Verif.Props.C75_sapling_injective: propext, Classical.choice, Quot.sound
Verif.Props.C76_overwinter_partial: propext, Classical.choice, Quot.sound
Verif.Props.C76_overwinter_false: propext, Classical.choice, Quot.sound
Verif.Props.C76_sapling_partial: propext, Classical.choice, Quot.sound
Verif.Props.C76_sapling_false: propext, Classical.choice, Quot.sound
Verif.Props.C77_overwinter_depends: propext, Classical.choice, Quot.sound
Verif.Props.C77_overwinter_binds: propext, Classical.choice, Quot.sound
Verif.Props.C77_overwinter_binds_joinsplit: propext, Classical.choice, Quot.sound
Verif.Props.C77_sapling_depends: propext, Classical.choice, Quot.sound
Verif.Props.C77_sapling_binds: propext, Classical.choice, Quot.sound
Verif.Props.C77_sapling_binds_joinsplit: propext, Classical.choice, Quot.sound
Verif.Props.C78_all_binds: propext, Classical.choice, Quot.sound
Verif.Props.C79_hashes: propext, Classical.choice, Quot.sound
Verif.Props.C80_decision: propext, Classical.choice, Quot.sound
Verif.Props.C80_version_false: propext, Classical.choice, Quot.sound
Verif.Props.C80_size: propext, Classical.choice, Quot.sound
Verif.Props.C80_legacy_weight: propext, Classical.choice, Quot.sound
Verif.Props.C81_witness: propext, Classical.choice, Quot.sound
Verif.Props.C81_injective: propext, Classical.choice, Quot.sound
Verif.Props.C81_empty: none
Verif.Props.C81_legacy_input: propext, Classical.choice, Quot.sound
Verif.Props.C81_witness_input: propext, Classical.choice, Quot.sound
Verif.Props.C81_decred_input: propext, Classical.choice, Quot.sound
Verif.Props.C81_foreign_outpoint: propext, Classical.choice, Quot.sound
Verif.Props.C81_decred_parts: propext, Classical.choice, Quot.sound
Verif.Props.C82_pays: propext, Classical.choice, Quot.sound
Verif.Props.C82_refuses: propext, Classical.choice, Quot.sound
Verif.Props.C82_address: propext, Classical.choice, Quot.sound
Verif.Props.C83_errors: propext, Classical.choice, Quot.sound
Verif.Props.C83_element_errors: propext, Classical.choice, Quot.sound
Verif.Props.C83_accepted: propext, Classical.choice, Quot.sound
Verif.Props.C83_reread: propext, Classical.choice, Quot.sound
Verif.Props.C83_overwinter: propext, Classical.choice, Quot.sound
Verif.Props.C83_sapling: propext, Classical.choice, Quot.sound
Verif.Props.C83_sprout: propext, Classical.choice, Quot.sound
Verif.Props.C84_legacy: propext, Classical.choice, Quot.sound
Verif.Props.C84_segwit_partial: propext, Classical.choice, Quot.sound
Verif.Props.C84_segwit_false: propext, Classical.choice, Quot.sound
Verif.Props.C84_long_item_false: propext, Classical.choice, Quot.sound
Verif.Props.C84_sapling: propext, Classical.choice, Quot.sound
Verif.Props.C84_overwinter_partial: propext, Classical.choice, Quot.sound
Verif.Props.C84_overwinter_false: propext, Classical.choice, Quot.sound
Verif.Props.C84_sprout_partial: propext, Classical.choice, Quot.sound
Verif.Props.C84_sprout_false: propext, Classical.choice, Quot.sound
Verif.Props.C85_partial: propext, Classical.choice, Quot.sound
Verif.Props.C85_false: propext, Classical.choice, Quot.sound
Verif.Props.C85_exact: propext, Classical.choice, Quot.sound
Verif.Props.C85_iff: propext, Classical.choice, Quot.sound
Verif.Props.C86_base58: propext, Classical.choice, Quot.sound
Verif.Props.C86_bech32: propext, Classical.choice, Quot.sound
Verif.Props.C86_cashaddr: propext, Classical.choice, Quot.sound
Verif.Props.C86_base58_witness_false: propext, Classical.choice, Quot.sound
Verif.Props.C86_kind_false: propext, Classical.choice, Quot.sound
Verif.Props.C86_kind_partial: propext, Classical.choice, Quot.sound
Verif.Props.C86_decred: propext, Classical.choice, Quot.sound
Verif.Props.C87_make: propext, Classical.choice, Quot.sound
Verif.Props.C87_from: propext, Classical.choice, Quot.sound
Verif.Props.C87_read: propext, Classical.choice, Quot.sound
Verif.Props.C88_msig: propext, Classical.choice, Quot.sound
Verif.Props.C88_outputs: propext, Classical.choice, Quot.sound
Verif.Props.C88_p2pkh_sig: propext, Classical.choice, Quot.sound
Verif.Props.C88_p2pkh_pubkey_false: propext, Classical.choice, Quot.sound
Verif.Props.C88_htlc: propext, Classical.choice, Quot.sound
Verif.Props.C88_htlc_stack_false: propext, Classical.choice, Quot.sound
Verif.Props.C88_msig_spend: propext, Classical.choice, Quot.sound
Verif.Props.C89_own: propext, Classical.choice, Quot.sound
Verif.Props.C89_payments: propext, Classical.choice, Quot.sound
Verif.Props.C90_digest: propext, Classical.choice, Quot.sound
Verif.Props.C90_script_sigs: propext, Classical.choice, Quot.sound
Verif.Props.C90_witnesses: propext, Classical.choice, Quot.sound
Verif.Props.C90_legacy_workflow: propext, Classical.choice, Quot.sound
Verif.Props.C90_witness_workflow: propext, Classical.choice, Quot.sound
Verif.Props.C91_exact: propext, Classical.choice, Quot.sound
Verif.Props.C91_unprefixed_never: propext, Classical.choice, Quot.sound
Verif.Props.C91_false: propext, Classical.choice, Quot.sound
Verif.Props.C91_unprefixed_false: propext, Classical.choice, Quot.sound
Verif.Props.C91_witness_false: propext, Classical.choice, Quot.sound
Verif.Props.C91_partial: propext, Classical.choice, Quot.sound
Verif.Props.C92_scripts: propext, Quot.sound
Verif.Props.C92_transactions: propext, Quot.sound
Verif.Props.C92_digests: propext, Quot.sound
Verif.Props.C92_decred: propext
Verif.Props.C93_bip143: propext, Classical.choice, Quot.sound
Verif.Props.C93_legacy: propext, Classical.choice, Quot.sound
Verif.Props.C94_base58: propext, Classical.choice, Quot.sound
Verif.Props.C94_base58_covers: propext, Classical.choice, Quot.sound
Verif.Props.C94_decred_simnet_false: propext, Classical.choice, Quot.sound
Verif.Props.C94_bech32: propext, Classical.choice, Quot.sound
Verif.Props.C94_bech32_covers: propext, Classical.choice, Quot.sound
Verif.Props.C94_litecoin_reg_false: propext, Classical.choice, Quot.sound
Verif.Props.C94_base58_witness_false: propext, Classical.choice, Quot.sound
Verif.Props.C94_cashaddr: propext, Classical.choice, Quot.sound
Verif.Props.C94_cashaddr_prefixes: propext, Classical.choice, Quot.sound
Verif.Props.C94_cashaddr_reg_false: propext, Classical.choice, Quot.sound
Verif.Props.C95_text: propext, Classical.choice, Quot.sound
Verif.Props.C95_ascii_partial: propext, Classical.choice, Quot.sound
Verif.Props.C95_false: propext, Classical.choice, Quot.sound
Verif.Props.C96_partial: propext, Classical.choice, Quot.sound
Verif.Props.C96_false: propext, Quot.sound
Verif.Props.C96_empty_false: propext, Quot.sound
Verif.Props.C96_hexdigest: propext, Quot.sound
Verif.Props.C97_bech32: propext, Classical.choice, Quot.sound
Verif.Props.C97_bech32_address: propext, Classical.choice, Quot.sound
Verif.Props.C97_cashaddr: propext, Classical.choice, Quot.sound
Verif.Props.C97_cashaddr_address: propext, Classical.choice, Quot.sound
Verif.Props.C98_checksum: propext, Classical.choice, Quot.sound
Verif.Props.C98_version0_false: propext, Classical.choice, Quot.sound
Verif.Props.C98_later_versions_false: propext, Classical.choice, Quot.sound
Verif.Props.C98_partial: propext, Classical.choice, Quot.sound
Verif.Props.C98_cashaddr_checksum: propext, Classical.choice, Quot.sound
Verif.Props.C98_cashaddr_false: propext, Classical.choice, Quot.sound
Verif.Props.C99_exact: propext, Classical.choice, Quot.sound
Verif.Props.C99_fields: propext, Classical.choice, Quot.sound
Verif.Props.C99_false_output: propext, Quot.sound
Verif.Props.C99_false_misread: propext, Quot.sound
Verif.Props.C99_false_length: propext, Quot.sound
Verif.Props.C100_witness: propext, Quot.sound
Verif.Props.C100_parts: propext, Quot.sound
Verif.Props.C100_tx: propext, Classical.choice, Quot.sound
Verif.Props.C100_frozen: propext, Classical.choice, Quot.sound
Verif.Props.C100_bytearray_false: propext, Quot.sound
Verif.Props.C100_zcash_parts: propext, Quot.sound
Verif.Props.C100_decred_parts: propext, Quot.sound
Verif.Props.C100_sprout: propext, Classical.choice, Quot.sound
Verif.Props.C100_overwinter: propext, Classical.choice, Quot.sound
Verif.Props.C100_sapling: propext, Classical.choice, Quot.sound
Verif.Props.C100_zcash_frozen: propext, Quot.sound
Verif.Props.C100_sprout_follows: propext, Classical.choice, Quot.sound
Verif.Props.C100_overwinter_follows: propext, Classical.choice, Quot.sound
Verif.Props.C100_sapling_follows: propext, Classical.choice, Quot.sound
Verif.Props.C100_decred_partial: propext, Classical.choice, Quot.sound
Verif.Props.C100_decred_follows: propext, Classical.choice, Quot.sound
Verif.Props.C100_decred_false: propext, Classical.choice, Quot.sound
Verif.Props.C100_zcash_bytearray_false: propext, Quot.sound
Verif.Props.C101_index: propext, Quot.sound
Verif.Props.C101_slice: propext, Classical.choice, Quot.sound
Verif.Props.C101_find: propext, Quot.sound
Verif.Props.C101_in_partial: propext, Quot.sound
Verif.Props.C101_in_false: propext
Verif.Props.C101_format: propext, Quot.sound
Verif.Props.C101_tx_hex: propext, Quot.sound
Verif.Props.C101_repr: propext, Quot.sound
Verif.Props.C101_repr_ascii: propext, Quot.sound
Verif.Props.C101_repr_literal: propext, Quot.sound
Verif.Props.C102_op_return_partial: propext, Classical.choice, Quot.sound
Verif.Props.C102_op_return_digest_false: propext, Classical.choice, Quot.sound
Verif.Props.C102_op_return_false: propext, Quot.sound
Verif.Props.C102_sapling_false: propext, Classical.choice, Quot.sound
Verif.Props.C102_htlc_partial: propext, Classical.choice, Quot.sound
Verif.Props.C102_htlc_false: propext, Quot.sound
Verif.Props.C102_parsing_false: propext, Classical.choice, Quot.sound
Verif.Props.C102_parsing_partial: propext, Classical.choice, Quot.sound
Verif.Props.C103_p2pkh: propext, Classical.choice, Quot.sound
Verif.Props.C103_p2pkh_sig: propext, Classical.choice, Quot.sound
Verif.Props.C103_p2wpkh: propext, Classical.choice, Quot.sound
Verif.Props.C103_p2sh: propext, Classical.choice, Quot.sound
Verif.Props.C103_p2sh_sig: propext, Classical.choice, Quot.sound
Verif.Props.C103_p2sh_false: propext, Classical.choice, Quot.sound
Verif.Props.C103_p2wsh: propext, Classical.choice, Quot.sound
Verif.Props.C103_p2wsh_false: propext, Classical.choice, Quot.sound
Verif.Props.C103_op_return: propext, Classical.choice, Quot.sound
Verif.Props.C103_nested: propext, Classical.choice, Quot.sound
Verif.Props.C103_msig: propext, Classical.choice, Quot.sound
Verif.Props.C103_htlc: propext, Classical.choice, Quot.sound
Verif.Props.C104_p2pkh: propext, Classical.choice, Quot.sound
Verif.Props.C104_p2wpkh: propext, Classical.choice, Quot.sound
Verif.Props.C104_msig: propext, Classical.choice, Quot.sound
Verif.Props.C104_witness_msig: propext, Classical.choice, Quot.sound
Verif.Props.C104_htlc: propext, Classical.choice, Quot.sound
Verif.Props.C104_mixed: propext, Classical.choice, Quot.sound
Verif.Props.C104_mixed_false: propext, Classical.choice, Quot.sound
Verif.Props.C105_overwinter: propext, Classical.choice, Quot.sound
Verif.Props.C105_sapling: propext, Classical.choice, Quot.sound
Verif.Props.C105_sprout_partial: propext, Classical.choice, Quot.sound
Verif.Props.C105_sprout_false: propext, Classical.choice, Quot.sound
Verif.Props.C106_single_partial: propext, Classical.choice, Quot.sound
Verif.Props.C106_false: propext, Classical.choice, Quot.sound
Verif.Props.C106_false_bitcoin: propext, Classical.choice, Quot.sound
Verif.Props.C106_witness: propext, Classical.choice, Quot.sound
Verif.Props.C107_witness: propext, Classical.choice, Quot.sound
Verif.Props.C107_forkid: propext, Classical.choice, Quot.sound
Verif.Props.C107_legacy_partial: propext, Classical.choice, Quot.sound
Verif.Props.C107_legacy_single_partial: propext, Classical.choice, Quot.sound
Verif.Props.C108_p2pkh: propext, Classical.choice, Quot.sound
Verif.Props.C108_acp_partial: propext, Classical.choice, Quot.sound
Verif.Props.C108_single_partial: propext, Classical.choice, Quot.sound
Verif.Props.C108_false: propext, Classical.choice, Quot.sound
Verif.Props.C109_overwinter_rest: propext, Classical.choice, Quot.sound
Verif.Props.C109_overwinter: propext, Classical.choice, Quot.sound
Verif.Props.C109_sapling_rest: propext, Classical.choice, Quot.sound
Verif.Props.C109_sapling: propext, Classical.choice, Quot.sound
Verif.Props.C109_sprout: propext, Classical.choice, Quot.sound
Verif.Props.C109_fields_overwinter: propext, Classical.choice, Quot.sound
Verif.Props.C109_fields_sapling: propext, Classical.choice, Quot.sound
Verif.Props.C109_false_multisig: propext, Classical.choice, Quot.sound
Verif.Props.C109_false_sprout: propext, Classical.choice, Quot.sound
Verif.Props.C110_bech32: propext, Classical.choice, Quot.sound
Verif.Props.C110_bech32_create: propext, Classical.choice, Quot.sound
Verif.Props.C110_cash: propext, Classical.choice, Quot.sound
Verif.Props.C110_decode: propext, Classical.choice, Quot.sound
Verif.Props.C110_cash_decode: propext, Classical.choice, Quot.sound
Verif.Props.C111_base58: propext, Classical.choice, Quot.sound
Verif.Props.C111_bech32: propext, Classical.choice, Quot.sound
Verif.Props.C111_cash: propext, Classical.choice, Quot.sound
Verif.Props.C111_unique: propext, Classical.choice, Quot.sound
Verif.Props.C111_odd: propext, Quot.sound
Verif.Props.C112_serialize: propext, Classical.choice, Quot.sound
Verif.Props.C112_serialize_error: propext, Classical.choice, Quot.sound
Verif.Props.C112_deserialize: propext, Classical.choice, Quot.sound
Verif.Props.C112_deserialize_error: propext, Classical.choice, Quot.sound
Verif.Props.C113_plain: propext, Classical.choice, Quot.sound
Verif.Props.C113_cash: propext, Classical.choice, Quot.sound
Verif.Props.C113_wrong: propext, Quot.sound
Verif.Props.C113_false_upper: propext, Classical.choice, Quot.sound
Verif.Props.C113_false_crossed: propext, Classical.choice, Quot.sound
Verif.Props.C114_outpoint: propext, Quot.sound
Verif.Props.C114_txIn: propext, Classical.choice, Quot.sound
Verif.Props.C114_txOut: propext, Classical.choice, Quot.sound
Verif.Props.C114_item: propext, Classical.choice, Quot.sound
Verif.Props.C114_tx_errors: propext, Classical.choice, Quot.sound
Verif.Props.C114_safe_in: propext, Classical.choice, Quot.sound
Verif.Props.C114_safe_out: propext, Classical.choice, Quot.sound
Verif.Props.C114_safe_witness: propext, Classical.choice, Quot.sound
Verif.Props.C114_safe: propext, Classical.choice, Quot.sound
Verif.Props.C114_witness: propext, Classical.choice, Quot.sound
Verif.Props.C114_tx: propext, Classical.choice, Quot.sound
Verif.Props.C114_typed_parts: propext, Quot.sound
Verif.Props.C114_typed: propext, Quot.sound
Verif.Props.C115_same: propext, Classical.choice, Quot.sound
Verif.Props.C115_txIn_partial: propext, Classical.choice, Quot.sound
Verif.Props.C115_tx_partial: propext, Classical.choice, Quot.sound
Verif.Props.C115_false: propext, Quot.sound
Verif.Props.C116_sproutProof: propext, Quot.sound
Verif.Props.C116_saplingProof: propext, Quot.sound
Verif.Props.C116_spend: propext, Quot.sound
Verif.Props.C116_output: propext, Quot.sound
Verif.Props.C116_joinsplit: propext, Quot.sound
Verif.Props.C116_vpub_none: propext
Verif.Props.C116_safe_sproutJs: propext, Quot.sound
Verif.Props.C116_safe_saplingJs: propext, Quot.sound
Verif.Props.C116_safe_spend: propext, Quot.sound
Verif.Props.C116_safe_output: propext, Quot.sound
Verif.Props.C116_safe_overwinter: propext, Classical.choice, Quot.sound
Verif.Props.C116_safe_sapling: propext, Classical.choice, Quot.sound
Verif.Props.C116_safe_sprout: propext, Classical.choice, Quot.sound
Verif.Props.C116_overwinter: propext, Classical.choice, Quot.sound
Verif.Props.C116_sapling: propext, Classical.choice, Quot.sound
Verif.Props.C116_sprout: propext, Classical.choice, Quot.sound
Verif.Props.C116_typed_parts: propext, Quot.sound
Verif.Props.C116_typed_overwinter: propext, Quot.sound
Verif.Props.C116_typed_sapling: propext, Quot.sound
Verif.Props.C116_typed_sprout: propext, Quot.sound
Verif.Props.C117_tx: propext, Classical.choice, Quot.sound
Verif.Props.C117_outpoint: propext, Quot.sound
Verif.Props.C117_txIn: propext, Quot.sound
Verif.Props.C117_txOut: propext, Classical.choice, Quot.sound
Verif.Props.C117_witness: propext, Classical.choice, Quot.sound
Verif.Props.C117_safe: propext, Classical.choice, Quot.sound
Verif.Props.C117_typed_parts: propext, Quot.sound
Verif.Props.C117_typed: propext, Quot.sound
Verif.Props.C118_args: propext, Classical.choice, Quot.sound
Verif.Props.C118_args_decred: propext, Classical.choice, Quot.sound
Verif.Props.C118_args_zcash: propext, Classical.choice, Quot.sound
Verif.Props.C118_same: propext, Classical.choice, Quot.sound
Verif.Props.C118_made: propext, Classical.choice, Quot.sound
Verif.Props.C118_typed_parts: propext, Quot.sound
Verif.Props.C118_typed: propext, Quot.sound
Verif.Props.C119_constructors: propext, Classical.choice, Quot.sound
Verif.Props.C119_copy: propext, Classical.choice, Quot.sound
Verif.Props.C120_bytes: propext, Quot.sound
Verif.Props.C120_objects: propext, Quot.sound
Verif.Props.C120_bytearrays: propext, Classical.choice, Quot.sound
Verif.Props.C120_refused: propext, Quot.sound
Verif.Props.C120_varint: propext, Classical.choice, Quot.sound
Verif.Props.C120_witness: propext, Quot.sound
Verif.Props.C120_kept: propext, Classical.choice, Quot.sound
Verif.Props.C121_made: propext, Classical.choice, Quot.sound
Verif.Props.C121_made_simple: propext, Classical.choice, Quot.sound
Verif.Props.C121_class: propext, Quot.sound
Verif.Props.C121_typed_outputs: propext, Classical.choice, Quot.sound
Verif.Props.C121_typed_inputs: propext, Quot.sound
Verif.Props.C121_typed_witness_input: propext, Quot.sound
Verif.Props.C121_length_prepend: propext, Classical.choice, Quot.sound
Verif.Props.C121_typed_tx: propext, Classical.choice, Quot.sound
Verif.Props.C121_typed_decred: propext, Quot.sound
Verif.Props.C121_typed_simple: propext, Classical.choice, Quot.sound
Verif.Props.C121_bytearray: propext, Classical.choice, Quot.sound
Verif.Props.C121_bytearray_simple: propext, Classical.choice, Quot.sound
Verif.Props.C122_outputs: propext, Classical.choice, Quot.sound
Verif.Props.C122_inputs: propext, Classical.choice, Quot.sound
Verif.Props.C122_make_tx: propext, Classical.choice, Quot.sound
Verif.Props.C122_refused: propext, Classical.choice, Quot.sound
Verif.Props.C122_ignored: propext, Quot.sound
Verif.Props.C122_documented_false: propext, Classical.choice, Quot.sound
Verif.Props.C122_negative_balance_false: propext, Classical.choice, Quot.sound
Verif.Props.C123_witness: propext, Classical.choice, Quot.sound
Verif.Props.C123_forkid: propext, Classical.choice, Quot.sound
Verif.Props.C123_legacy: propext, Classical.choice, Quot.sound
Verif.Props.C123_index: propext, Classical.choice, Quot.sound
Verif.Props.C123_overload_false: propext, Classical.choice, Quot.sound
Verif.Props.C123_value_false: propext, Classical.choice, Quot.sound
Verif.Props.C124_overwinter: propext, Classical.choice, Quot.sound
Verif.Props.C124_sapling: propext, Classical.choice, Quot.sound
Verif.Props.C124_refused: propext, Classical.choice, Quot.sound
Verif.Props.C124_overwinter_methods: propext, Classical.choice, Quot.sound
Verif.Props.C124_sapling_methods: propext, Classical.choice, Quot.sound
Verif.Props.C124_overwinter_type_false: propext, Classical.choice, Quot.sound
Verif.Props.C124_sapling_type_false: propext, Classical.choice, Quot.sound
Verif.Props.C125_tx: propext, Classical.choice, Quot.sound
Verif.Props.C125_overwinter: propext, Classical.choice, Quot.sound
Verif.Props.C125_sapling: propext, Classical.choice, Quot.sound
Verif.Props.C125_sprout: propext, Classical.choice, Quot.sound
Verif.Props.C125_decred: propext, Classical.choice, Quot.sound
Verif.Props.C125_parts: propext, Classical.choice, Quot.sound
Verif.Props.C125_small: propext, Classical.choice, Quot.sound
Verif.Props.C126_all: propext, Classical.choice, Quot.sound
Verif.Props.C126_index: propext, Classical.choice, Quot.sound
Verif.Props.C126_false: propext, Classical.choice, Quot.sound
Verif.Props.C126_fields: propext, Classical.choice, Quot.sound
Verif.Props.C127_all: propext, Classical.choice, Quot.sound
Verif.Props.C127_single: propext, Classical.choice, Quot.sound
Verif.Props.C127_refused: propext, Classical.choice, Quot.sound
Verif.Props.C127_fields: propext, Classical.choice, Quot.sound
Verif.Props.C128_selected: propext, Quot.sound
Verif.Props.C128_tx: propext, Classical.choice, Quot.sound
Verif.Props.C128_overwinter: propext, Classical.choice, Quot.sound
Verif.Props.C128_sapling: propext, Classical.choice, Quot.sound
Verif.Props.C128_sprout: propext, Classical.choice, Quot.sound
Verif.Props.C128_decred: propext, Classical.choice, Quot.sound
Verif.Props.C128_replay: propext, Classical.choice, Quot.sound
Verif.Props.C129_from_script: propext, Quot.sound
Verif.Props.C129_from_script_refused: propext, Quot.sound
Verif.Props.C129_inputs_refused: propext, Classical.choice, Quot.sound
Verif.Props.C129_output: propext, Classical.choice, Quot.sound
Verif.Props.C129_output_false: propext, Classical.choice, Quot.sound
Verif.Props.C129_address: propext, Quot.sound
Verif.Props.C129_script_type: propext, Quot.sound
Verif.Props.C129_pkh_address: propext, Classical.choice, Quot.sound
Verif.Props.C129_pkh_address_partial: propext, Classical.choice, Quot.sound
Verif.Props.C129_pkh_address_false: propext, Classical.choice, Quot.sound
Verif.Props.C129_sh_script: propext, Classical.choice, Quot.sound
Verif.Props.C129_sh_address: propext, Quot.sound
Verif.Props.C129_script_sig: propext, Quot.sound
Verif.Props.C129_script_sig_negative: propext, Classical.choice, Quot.sound
Verif.Props.C129_script_sig_refused: propext, Quot.sound
Verif.Props.C129_script_sig_false: propext
Verif.Props.C129_deserialize: propext, Classical.choice, Quot.sound
Verif.Props.C129_hex_deserialize: propext
Verif.Props.C130_tx: propext, Classical.choice, Quot.sound
Verif.Props.C130_overwinter: propext, Classical.choice, Quot.sound
Verif.Props.C130_sapling: propext, Classical.choice, Quot.sound
Verif.Props.C130_sprout: propext, Classical.choice, Quot.sound
Verif.Props.C130_decred: propext, Classical.choice, Quot.sound
Verif.Props.C130_parts: propext, Classical.choice, Quot.sound
Verif.Props.C130_small: propext, Classical.choice, Quot.sound
Verif.Props.C131_raises: propext, Classical.choice, Quot.sound
Verif.Props.C131_copy: propext, Classical.choice, Quot.sound
Verif.Props.C132_tx: propext, Classical.choice, Quot.sound
Verif.Props.C132_tx_other: propext, Classical.choice, Quot.sound
Verif.Props.C132_sprout: propext, Classical.choice, Quot.sound
Verif.Props.C132_overwinter: propext, Classical.choice, Quot.sound
Verif.Props.C132_sapling: propext, Classical.choice, Quot.sound
Verif.Props.C132_false: propext, Quot.sound
Verif.Props.C132_false_zcash: propext, Quot.sound
Verif.Props.C132_false_split: propext, Quot.sound
Verif.Props.C133_tx: propext, Classical.choice, Quot.sound
Verif.Props.C133_false: propext, Quot.sound
Verif.Props.C133_overwinter: propext, Classical.choice, Quot.sound
Verif.Props.C133_sapling: propext, Classical.choice, Quot.sound
Verif.Props.C133_sprout: propext, Classical.choice, Quot.sound
Verif.Props.C134_tx: propext, Classical.choice, Quot.sound
Verif.Props.C134_overwinter: propext, Classical.choice, Quot.sound
Verif.Props.C134_sapling: propext, Classical.choice, Quot.sound
Verif.Props.C134_sprout: propext, Classical.choice, Quot.sound
Verif.Props.C134_decred: propext, Classical.choice, Quot.sound
Verif.Props.C134_read: propext, Quot.sound
Verif.Props.C134_none: propext, Classical.choice, Quot.sound
Verif.Props.C134_false: propext, Quot.sound
Verif.Props.C135_le2i: propext, Classical.choice, Quot.sound
Verif.Props.C135_be2i: propext, Classical.choice, Quot.sound
Verif.Props.C135_refused: propext, Classical.choice, Quot.sound
Verif.Props.C135_mirror: propext, Classical.choice, Quot.sound
Verif.Props.C135_padded: propext, Classical.choice, Quot.sound
Verif.Props.C135_shortest: propext, Classical.choice, Quot.sound
Verif.Props.C135_base58_check: propext, Classical.choice, Quot.sound
Verif.Props.C135_base58_plain: propext, Classical.choice, Quot.sound
Verif.Props.C135_base58_refused: propext, Classical.choice, Quot.sound
Verif.Props.C135_base58_decode: propext, Classical.choice, Quot.sound
Verif.Props.C135_base58_false: propext, Classical.choice, Quot.sound
Verif.Props.C135_varint: propext, Classical.choice, Quot.sound
Verif.Props.C135_varint_length: propext, Classical.choice, Quot.sound
Verif.Props.C135_varint_false: propext
Verif.Props.C135_varint_other: propext, Classical.choice, Quot.sound
Verif.Props.C135_not_int: propext
Verif.Props.C135_int_refused: propext, Classical.choice, Quot.sound
Verif.Props.C135_reversed_twice: propext, Quot.sound
Verif.Props.C135_has_checksum: propext, Classical.choice, Quot.sound
Verif.Props.C135_varint_range: propext, Quot.sound
Verif.Props.C136_bech32_encode: propext, Classical.choice, Quot.sound
Verif.Props.C136_bech32_refused: propext, Classical.choice, Quot.sound
Verif.Props.C136_bech32_decode: propext, Classical.choice, Quot.sound
Verif.Props.C136_bech32_decode_refused: propext, Classical.choice, Quot.sound
Verif.Props.C136_cash_encode: propext, Classical.choice, Quot.sound
Verif.Props.C136_cash_refused: propext, Classical.choice, Quot.sound
Verif.Props.C136_cash_decode: propext, Classical.choice, Quot.sound
Verif.Props.C136_networks: propext, Quot.sound
