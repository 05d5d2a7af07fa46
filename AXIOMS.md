# Axioms of the manifest theorems

Output of `#print axioms` for every theorem in `MANIFEST.json`, grouped.

## Classical.choice, Quot.sound, propext (389)

`C01_round_trip`, `C01_shipped`, `C02_seal_total`, `C02_shipped`, `C02_shipped_P512`, `C03_random_access`, `C03_byte_range`, `C04_round`, `C04_pipeline`, `C05_schedule_independent`, `C05_equals_sequential`, `C05_equals_sequential_random_short`, `C05_terminates`, `C05_honest`, `C06_panicking_task_returns_input`, `C06_other_blocks`, `C07_crash_point`, `C08_seal_region`, `C08_unseal_region`, `C09_sloth_bijection`, `C09_num_agrees`, `C10_zero_lost`, `C10_only_zero`, `C10_unit_lost`, `C11_legendre_jacobi`, `C11_legendre_square`, `C11_modulus_one`, `C12_vde_round_trip`, `C12_num_vde_round_trip`, `C13_mask_round_trip`, `C13_modadd_exact`, `C13_modsub_exact`, `C13_unmask_iff`, `C14_to_units_iff`, `C14_join_split`, `C14_split_join`, `C15_pad_compress`, `C17_load_save`, `C17_shipped`, `C18_long_random`, `C18_long_static`, `C18_long_random_total`, `C19_short_random`, `C19_short_static`, `C20_long_mode_3`, `C21_short_mode_2`, `C22_selection_panics`, `C22_sealing_panics`, `C22_sealing_large_blocks`, `C22_short_few`, `C23_window`, `C23_window_large`, `C23_unreachable`, `C24_sorted_distinct`, `C24_too_many_diverges`, `C24_exact`, `C25_prepare`, `C25_prepare_modes`, `C25_aligned_range`, `C26_prepare`, `C26_prepare_modes`, `C26_unaligned_range`, `C27_accepts_iff`, `C27_padding_ignored`, `C28_same_mask`, `C28_same_blocks`, `C29_prefix_lists_ok`, `C29_static_mode_wrong`, `C30_leaves`, `C30_equal_roots`, `C31_completeness`, `C31_empty_challenge_rejected`, `C32_binding`, `C32_leaf_count_not_bound`, `C34_fits_iff`, `C35_xor_bytes`, `C35_xor_comm`, `C35_xor_twice`, `C35_xor_twice_long`, `C36_bits_bytes`, `C37_round_trip`, `C37_usize_of_bits`, `C38_table`, `C39_response`, `C40_small_space_corrupt`, `C41_in_range`, `C41_every_list_possible`, `C41_too_many_bits`, `C42_feistel`, `C42_balanced`, `C42_balanced_cubic`, `C43_hash_bijective`, `C43_few_constants`, `C44_complete`, `C44_sound`, `C45_honest_witness`, `C45_honest_run`, `C46_every_statement_provable`, `C47_complete`, `C47_relation5`, `C47_relation7`, `C47_digest_not_bound`, `C48_accepts_iff`, `C48_invalid_proof_accepted`, `C49_count_mismatch`, `C50_bad_bits`, `C50_complete`, `C50_relation`, `C50_every_claim`, `C51_fast_modpow`, `C52_long_mode_2`, `C52_short_mode_1`, `C53_invented_dependencies`, `C54_primes`, `C54_scalar_field`, `C54_large_primes`, `C55_rabin_miller_iff`, `C55_prime_accepted`, `C55_exact_below`, `C55_get_prime`, `C56_fmod`, `C56_no_constraints`, `C57_unseal_total`, `C58_exact`, `C58_honest`, `C58_unseal_and_verify_iff`, `C59_round_without_sealed_file`, `C60_bad_bits`, `C60_complete`, `C60_relation`, `C60_every_claim`, `C60_full_width`, `C60_over_difficulty`, `C61_truncated`, `C62_long`, `C62_long_small`, `C62_short`, `C62_short_large`, `C62_seed_prefix`, `C63_shortfall`, `C63_shipped`, `C64_seal_exact`, `C64_shipped`, `C65_step`, `C65_encode`, `C66_causal`, `C67_thread_limit`, `C67_limit_reached`, `C68_prover_hash`, `C69_pipeline_accepted`, `C70_decides`, `C70_sound`, `C70_complete`, `C71_with_unseal`, `C71_without_unseal`, `C72_honest_accepted`, `C72_accepted_iff`, `C73_seal_then_check`, `C73_seal_unseal_challenge`, `C73_accepted_challenge`, `C73_accepted_single`, `C74_accepted_iff`, `C75_root`, `C75_file_root`, `C76_first_constant_unused`, `C77_run`, `C77_shipped`, `C78_success`, `C78_shipped_static`, `C79_unseal_exact`, `C79_decoder`, `C80_local`, `C80_damage`, `C81_batch_exact`, `C81_parallel_exact`, `C81_verdict`, `C81_verdict_parallel`, `C82_inverse`, `C82_unique`, `C82_file`, `C83_twin_accepted`, `C83_any_padding`, `C85_encodings`, `C85_retrieval`, `C86_first_round`, `C86_one_round`, `C86_shipped`, `C87_unseal`, `C87_recover`, `C88_copies_differ`, `C89_agrees`, `C89_long_modes`, `C89_short_mode_2`, `C90_same_runs`, `C90_seal_exact`, `C90_success`, `C90_round_trip`, `C90_random_access`, `C91_any_file`, `C91_count`, `C91_too_many`, `C92_loss_is_local`, `C92_one_round_exact`, `C92_at_most`, `C92_retrieval_and_rounds`, `C93_parallel_verdict`, `C93_plaintext_accepted`, `C94_batch`, `C94_parallel`, `C94_verdict`, `C94_verdict_parallel`, `C94_static_batch`, `C94_static_parallel`, `C94_static_verdict`, `C94_static_verdict_parallel`, `C95_read`, `C95_pad`, `C95_seal_exact`, `C95_unseal_exact`, `C95_retrieve`, `C95_complete`, `C95_verify`, `C95_honest_rejected`, `C96_unseal_stopped`, `C96_resume`, `C96_rerun`, `C96_seal_stopped`, `C96_seal_again`, `C96_shipped_undo`, `C97_short_units`, `C97_short_units_lost`, `C97_fitting_inputs`, `C97_short_key`, `C97_supported`, `C97_round_trip`, `C97_long_units`, `C98_count`, `C98_certain`, `C98_shipped`, `C99_exact`, `C99_exponent`, `C99_overflow`, `C99_shipped`, `C100_pad_any`, `C100_any_length`, `C100_returned_iff`, `C100_bad_layout`, `C101_same_runs`, `C101_prepare`, `C101_honest`, `C102_assignment`, `C102_any_table`, `C102_run`, `C102_two_bits`, `C103_answers`, `C103_round`, `C103_release_round`, `C103_ones_pass`, `C103_honest`, `C103_two_bits`, `C104_count`, `C104_bound`, `C104_release`, `C105_uniform`, `C105_share`, `C105_unfinished`, `C105_round`, `C105_rounds`, `C106_merkle`, `C106_parts`, `C106_total`, `C106_shipped`, `C107_trial`, `C107_composite`, `C108_run_again`, `C108_shipped_run_again`, `C108_public_data`, `C108_without_iv`, `C108_mixed_record`, `C109_depth_needed`, `C110_primes_alike`, `C110_composite`, `C110_overall`, `C110_reached`, `C111_tree`, `C111_file_tree`, `C111_verify`, `C111_rounded_down`, `C112_numeral`, `C112_load_iff`, `C112_panics`, `C112_suffix`, `C112_unnoticed`, `C112_not_unique`, `C113_complete`, `C113_compress`, `C113_merkle`, `C113_prepare`, `C113_round`, `C113_unseen`, `C114_compress`, `C114_seal`, `C114_unseal`, `C114_workflow`, `C115_complete`, `C115_range`, `C115_single`, `C115_merkle`, `C115_merkle_same`, `C115_lost`, `C115_run`, `C115_check`, `C116_pad`, `C116_compress`, `C116_seal`, `C116_unseal`, `C116_prepare`, `C116_range`, `C116_verify`, `C116_unseal_verify`, `C116_tree`, `C116_runs`, `C117_where`, `C117_seal`, `C117_success`, `C117_release`, `C117_unseal`, `C117_decode`, `C117_parallel`, `C117_workflow`, `C118_mark`, `C118_stopped`, `C118_again`, `C118_flagged`, `C118_torn_wrong`, `C118_stale`, `C119_same`, `C119_prepare`, `C119_range`, `C119_sealing`, `C119_unsealing`, `C119_verdict`, `C120_sloth_tests`, `C120_fixed_tests`, `C120_merkle_test`, `C120_circuit_tests`, `C120_verdict_ignored`, `C121_first_difference`, `C121_identifiers`, `C121_same_identifiers`, `C121_root`, `C121_one_round`, `C121_zero_not_bound`, `C122_layers`, `C122_last_layers`, `C122_stored`, `C122_shipped`, `C123_long`, `C123_long_large`, `C123_short_large`, `C123_short`, `C123_prefixes`, `C123_shipped`, `C124_update`, `C125_rounds`, `C125_first_block`, `C125_verdict`, `C126_strings`, `C126_lost`, `C126_retrieval`, `C126_shipped`, `C127_units`, `C127_copies`, `C127_first_block`, `C127_next`, `C128_never_sealed`, `C129_check_any_file`, `C129_old_files_ignored`, `C129_pipeline_files`, `C129_test_after_pipeline`, `C129_shipped`, `C130_verdict`, `C130_same`, `C130_old_initial_vector`, `C131_round_fails`, `C131_recovery`, `C132_stale`, `C133_hash`, `C133_multi`

## Quot.sound (1)

`C93_shipped`

## Quot.sound, propext (56)

`C06_only_two_panics`, `C15_compress_any`, `C16_read_file`, `C17_key_length`, `C24_terminates`, `C24_panics_iff`, `C30_first_leaf_ignored`, `C32_trailing_hashes_ignored`, `C33_shipped_consistent`, `C34_long_units_collide`, `C34_short_units_grow`, `C36_bit_order`, `C37_zero_bits`, `C49_shape`, `C49_space_shape`, `C51_edge`, `C52_long_mode_1`, `C60_zero_difficulty`, `C61_verdict`, `C61_equal_length`, `C68_hash_checked`, `C68_hash_binds`, `C73_missing_files`, `C73_unseal_then_check_fails`, `C74_every_round`, `C76_hash_value`, `C76_multi_hash`, `C83_shipped_twins`, `C84_random_file`, `C87_verdict`, `C90_hash_modes`, `C96_unseal_call`, `C96_calling_again`, `C103_run_is_round`, `C108_untouched`, `C109_depth`, `C114_outcome`, `C114_files`, `C114_prefix`, `C115_prepare`, `C116_range_blocks`, `C117_release_decode`, `C119_ranges`, `C119_respond`, `C119_out_of_time`, `C122_order`, `C128_block_cost`, `C131_outcome`, `C131_seal_fails`, `C131_root_check`, `C131_files`, `C132_outcome`, `C132_files`, `C132_repeat`, `C133_circuits`, `C134_not_binding`

## none (2)

`C54_mod_four`, `C89_other_modes`

## propext (11)

`C31_empty_panics`, `C33_unit_counts`, `C55_composite_accepted`, `C58_tables_agree`, `C60_zero_difficulty_panic`, `C71_no_origin`, `C127_skipped`, `C133_bits`, `C133_feistel`, `C134_append`, `C134_exchange`
