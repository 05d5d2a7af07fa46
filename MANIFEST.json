{
 "claims": [
  {
   "property": "C01",
   "status": "proved",
   "theorems": [
    "PoS.C01_round_trip",
    "PoS.C01_shipped"
   ],
   "note": ""
  },
  {
   "property": "C02",
   "status": "proved",
   "theorems": [
    "PoS.C02_seal_total",
    "PoS.C02_shipped",
    "PoS.C02_shipped_P512"
   ],
   "note": ""
  },
  {
   "property": "C03",
   "status": "proved",
   "theorems": [
    "PoS.C03_random_access",
    "PoS.C03_byte_range"
   ],
   "note": ""
  },
  {
   "property": "C04",
   "status": "proved",
   "theorems": [
    "PoS.C04_round",
    "PoS.C04_pipeline"
   ],
   "note": ""
  },
  {
   "property": "C05",
   "status": "proved",
   "theorems": [
    "PoS.C05_schedule_independent",
    "PoS.C05_equals_sequential",
    "PoS.C05_equals_sequential_random_short",
    "PoS.C05_terminates",
    "PoS.C05_honest"
   ],
   "note": ""
  },
  {
   "property": "C06",
   "status": "proved",
   "theorems": [
    "PoS.C06_panicking_task_returns_input",
    "PoS.C06_other_blocks",
    "PoS.C06_only_two_panics"
   ],
   "note": ""
  },
  {
   "property": "C07",
   "status": "proved",
   "theorems": [
    "PoS.C07_crash_point"
   ],
   "note": ""
  },
  {
   "property": "C08",
   "status": "proved",
   "theorems": [
    "PoS.C08_seal_region",
    "PoS.C08_unseal_region"
   ],
   "note": ""
  },
  {
   "property": "C09",
   "status": "proved",
   "theorems": [
    "PoS.C09_sloth_bijection",
    "PoS.C09_num_agrees"
   ],
   "note": ""
  },
  {
   "property": "C10",
   "status": "proved",
   "theorems": [
    "PoS.C10_zero_lost",
    "PoS.C10_only_zero",
    "PoS.C10_unit_lost"
   ],
   "note": ""
  },
  {
   "property": "C11",
   "status": "proved",
   "theorems": [
    "PoS.C11_legendre_jacobi",
    "PoS.C11_legendre_square",
    "PoS.C11_modulus_one"
   ],
   "note": ""
  },
  {
   "property": "C12",
   "status": "proved",
   "theorems": [
    "PoS.C12_vde_round_trip",
    "PoS.C12_num_vde_round_trip"
   ],
   "note": ""
  },
  {
   "property": "C13",
   "status": "proved",
   "theorems": [
    "PoS.C13_mask_round_trip",
    "PoS.C13_modadd_exact",
    "PoS.C13_modsub_exact",
    "PoS.C13_unmask_iff"
   ],
   "note": ""
  },
  {
   "property": "C14",
   "status": "proved",
   "theorems": [
    "PoS.C14_to_units_iff",
    "PoS.C14_join_split",
    "PoS.C14_split_join"
   ],
   "note": ""
  },
  {
   "property": "C15",
   "status": "proved",
   "theorems": [
    "PoS.C15_pad_compress",
    "PoS.C15_compress_any"
   ],
   "note": ""
  },
  {
   "property": "C16",
   "status": "proved",
   "theorems": [
    "PoS.C16_read_file"
   ],
   "note": ""
  },
  {
   "property": "C17",
   "status": "proved",
   "theorems": [
    "PoS.C17_load_save",
    "PoS.C17_key_length",
    "PoS.C17_shipped"
   ],
   "note": ""
  },
  {
   "property": "C18",
   "status": "proved",
   "theorems": [
    "PoS.C18_long_random",
    "PoS.C18_long_static",
    "PoS.C18_long_random_total"
   ],
   "note": ""
  },
  {
   "property": "C19",
   "status": "proved",
   "theorems": [
    "PoS.C19_short_random",
    "PoS.C19_short_static"
   ],
   "note": ""
  },
  {
   "property": "C20",
   "status": "proved",
   "theorems": [
    "PoS.C20_long_mode_3"
   ],
   "note": ""
  },
  {
   "property": "C21",
   "status": "proved",
   "theorems": [
    "PoS.C21_short_mode_2"
   ],
   "note": ""
  },
  {
   "property": "C22",
   "status": "proved",
   "theorems": [
    "PoS.C22_selection_panics",
    "PoS.C22_sealing_panics",
    "PoS.C22_sealing_large_blocks",
    "PoS.C22_short_few"
   ],
   "note": ""
  },
  {
   "property": "C23",
   "status": "proved",
   "theorems": [
    "PoS.C23_window",
    "PoS.C23_window_large",
    "PoS.C23_unreachable"
   ],
   "note": ""
  },
  {
   "property": "C24",
   "status": "proved",
   "theorems": [
    "PoS.C24_sorted_distinct",
    "PoS.C24_too_many_diverges",
    "PoS.C24_terminates",
    "PoS.C24_panics_iff",
    "PoS.C24_exact"
   ],
   "note": ""
  },
  {
   "property": "C25",
   "status": "proved",
   "theorems": [
    "PoS.C25_prepare",
    "PoS.C25_prepare_modes",
    "PoS.C25_aligned_range"
   ],
   "note": ""
  },
  {
   "property": "C26",
   "status": "proved",
   "theorems": [
    "PoS.C26_prepare",
    "PoS.C26_prepare_modes",
    "PoS.C26_unaligned_range"
   ],
   "note": ""
  },
  {
   "property": "C27",
   "status": "proved",
   "theorems": [
    "PoS.C27_accepts_iff",
    "PoS.C27_padding_ignored"
   ],
   "note": ""
  },
  {
   "property": "C28",
   "status": "proved",
   "theorems": [
    "PoS.C28_same_mask",
    "PoS.C28_same_blocks"
   ],
   "note": ""
  },
  {
   "property": "C29",
   "status": "proved",
   "theorems": [
    "PoS.C29_prefix_lists_ok",
    "PoS.C29_static_mode_wrong"
   ],
   "note": ""
  },
  {
   "property": "C30",
   "status": "proved",
   "theorems": [
    "PoS.C30_leaves",
    "PoS.C30_first_leaf_ignored",
    "PoS.C30_equal_roots"
   ],
   "note": ""
  },
  {
   "property": "C31",
   "status": "proved",
   "theorems": [
    "PoS.C31_completeness",
    "PoS.C31_empty_panics",
    "PoS.C31_empty_challenge_rejected"
   ],
   "note": ""
  },
  {
   "property": "C32",
   "status": "proved",
   "theorems": [
    "PoS.C32_binding",
    "PoS.C32_leaf_count_not_bound",
    "PoS.C32_trailing_hashes_ignored"
   ],
   "note": ""
  },
  {
   "property": "C33",
   "status": "proved",
   "theorems": [
    "PoS.C33_shipped_consistent",
    "PoS.C33_unit_counts"
   ],
   "note": ""
  },
  {
   "property": "C34",
   "status": "proved",
   "theorems": [
    "PoS.C34_fits_iff",
    "PoS.C34_long_units_collide",
    "PoS.C34_short_units_grow"
   ],
   "note": ""
  },
  {
   "property": "C35",
   "status": "proved",
   "theorems": [
    "PoS.C35_xor_bytes",
    "PoS.C35_xor_comm",
    "PoS.C35_xor_twice",
    "PoS.C35_xor_twice_long"
   ],
   "note": ""
  },
  {
   "property": "C36",
   "status": "proved",
   "theorems": [
    "PoS.C36_bits_bytes",
    "PoS.C36_bit_order"
   ],
   "note": ""
  },
  {
   "property": "C37",
   "status": "proved",
   "theorems": [
    "PoS.C37_round_trip",
    "PoS.C37_usize_of_bits",
    "PoS.C37_zero_bits"
   ],
   "note": ""
  },
  {
   "property": "C38",
   "status": "proved",
   "theorems": [
    "PoS.C38_table"
   ],
   "note": ""
  },
  {
   "property": "C39",
   "status": "proved",
   "theorems": [
    "PoS.C39_response"
   ],
   "note": ""
  },
  {
   "property": "C40",
   "status": "proved",
   "theorems": [
    "PoS.C40_small_space_corrupt"
   ],
   "note": ""
  },
  {
   "property": "C41",
   "status": "proved",
   "theorems": [
    "PoS.C41_in_range",
    "PoS.C41_every_list_possible",
    "PoS.C41_too_many_bits"
   ],
   "note": ""
  },
  {
   "property": "C42",
   "status": "proved",
   "theorems": [
    "PoS.C42_feistel",
    "PoS.C42_balanced",
    "PoS.C42_balanced_cubic"
   ],
   "note": ""
  },
  {
   "property": "C43",
   "status": "proved",
   "theorems": [
    "PoS.C43_hash_bijective",
    "PoS.C43_few_constants"
   ],
   "note": ""
  },
  {
   "property": "C44",
   "status": "proved",
   "theorems": [
    "PoS.C44_complete",
    "PoS.C44_sound"
   ],
   "note": ""
  },
  {
   "property": "C45",
   "status": "proved",
   "theorems": [
    "PoS.C45_honest_witness",
    "PoS.C45_honest_run"
   ],
   "note": ""
  },
  {
   "property": "C46",
   "status": "proved",
   "theorems": [
    "PoS.C46_every_statement_provable"
   ],
   "note": ""
  },
  {
   "property": "C47",
   "status": "proved",
   "theorems": [
    "PoS.C47_complete",
    "PoS.C47_relation5",
    "PoS.C47_relation7",
    "PoS.C47_digest_not_bound"
   ],
   "note": ""
  },
  {
   "property": "C48",
   "status": "proved",
   "theorems": [
    "PoS.C48_accepts_iff",
    "PoS.C48_invalid_proof_accepted"
   ],
   "note": ""
  },
  {
   "property": "C49",
   "status": "proved",
   "theorems": [
    "PoS.C49_shape",
    "PoS.C49_space_shape",
    "PoS.C49_count_mismatch"
   ],
   "note": ""
  },
  {
   "property": "C50",
   "status": "proved",
   "theorems": [
    "PoS.C50_bad_bits",
    "PoS.C50_complete",
    "PoS.C50_relation",
    "PoS.C50_every_claim"
   ],
   "note": ""
  },
  {
   "property": "C51",
   "status": "proved",
   "theorems": [
    "PoS.C51_fast_modpow",
    "PoS.C51_edge"
   ],
   "note": ""
  },
  {
   "property": "C52",
   "status": "proved",
   "theorems": [
    "PoS.C52_long_mode_1",
    "PoS.C52_long_mode_2",
    "PoS.C52_short_mode_1"
   ],
   "note": ""
  },
  {
   "property": "C53",
   "status": "proved",
   "theorems": [
    "PoS.C53_invented_dependencies"
   ],
   "note": ""
  },
  {
   "property": "C54",
   "status": "proved",
   "theorems": [
    "PoS.C54_primes",
    "PoS.C54_mod_four",
    "PoS.C54_scalar_field",
    "PoS.C54_large_primes"
   ],
   "note": ""
  },
  {
   "property": "C55",
   "status": "proved",
   "theorems": [
    "PoS.C55_rabin_miller_iff",
    "PoS.C55_prime_accepted",
    "PoS.C55_exact_below",
    "PoS.C55_composite_accepted",
    "PoS.C55_get_prime"
   ],
   "note": ""
  },
  {
   "property": "C56",
   "status": "proved",
   "theorems": [
    "PoS.C56_fmod",
    "PoS.C56_no_constraints"
   ],
   "note": ""
  },
  {
   "property": "C57",
   "status": "proved",
   "theorems": [
    "PoS.C57_unseal_total"
   ],
   "note": ""
  },
  {
   "property": "C58",
   "status": "proved",
   "theorems": [
    "PoS.C58_exact",
    "PoS.C58_honest",
    "PoS.C58_unseal_and_verify_iff",
    "PoS.C58_tables_agree"
   ],
   "note": ""
  },
  {
   "property": "C59",
   "status": "proved",
   "theorems": [
    "PoS.C59_round_without_sealed_file"
   ],
   "note": ""
  },
  {
   "property": "C60",
   "status": "proved",
   "theorems": [
    "PoS.C60_bad_bits",
    "PoS.C60_complete",
    "PoS.C60_relation",
    "PoS.C60_every_claim",
    "PoS.C60_full_width",
    "PoS.C60_over_difficulty",
    "PoS.C60_zero_difficulty",
    "PoS.C60_zero_difficulty_panic"
   ],
   "note": ""
  },
  {
   "property": "C61",
   "status": "proved",
   "theorems": [
    "PoS.C61_verdict",
    "PoS.C61_equal_length",
    "PoS.C61_truncated"
   ],
   "note": ""
  },
  {
   "property": "C62",
   "status": "proved",
   "theorems": [
    "PoS.C62_long",
    "PoS.C62_long_small",
    "PoS.C62_short",
    "PoS.C62_short_large",
    "PoS.C62_seed_prefix"
   ],
   "note": ""
  },
  {
   "property": "C63",
   "status": "proved",
   "theorems": [
    "PoS.C63_shortfall",
    "PoS.C63_shipped"
   ],
   "note": ""
  },
  {
   "property": "C64",
   "status": "proved",
   "theorems": [
    "PoS.C64_seal_exact",
    "PoS.C64_shipped"
   ],
   "note": ""
  },
  {
   "property": "C65",
   "status": "proved",
   "theorems": [
    "PoS.C65_step",
    "PoS.C65_encode"
   ],
   "note": ""
  },
  {
   "property": "C66",
   "status": "proved",
   "theorems": [
    "PoS.C66_causal"
   ],
   "note": ""
  },
  {
   "property": "C67",
   "status": "proved",
   "theorems": [
    "PoS.C67_thread_limit",
    "PoS.C67_limit_reached"
   ],
   "note": ""
  },
  {
   "property": "C68",
   "status": "proved",
   "theorems": [
    "PoS.C68_hash_checked",
    "PoS.C68_hash_binds",
    "PoS.C68_prover_hash"
   ],
   "note": ""
  },
  {
   "property": "C69",
   "status": "proved",
   "theorems": [
    "PoS.C69_pipeline_accepted"
   ],
   "note": ""
  },
  {
   "property": "C70",
   "status": "proved",
   "theorems": [
    "PoS.C70_decides",
    "PoS.C70_sound",
    "PoS.C70_complete"
   ],
   "note": ""
  },
  {
   "property": "C71",
   "status": "proved",
   "theorems": [
    "PoS.C71_with_unseal",
    "PoS.C71_without_unseal",
    "PoS.C71_no_origin"
   ],
   "note": ""
  },
  {
   "property": "C72",
   "status": "proved",
   "theorems": [
    "PoS.C72_honest_accepted",
    "PoS.C72_accepted_iff"
   ],
   "note": ""
  },
  {
   "property": "C73",
   "status": "proved",
   "theorems": [
    "PoS.C73_seal_then_check",
    "PoS.C73_seal_unseal_challenge",
    "PoS.C73_missing_files",
    "PoS.C73_accepted_challenge",
    "PoS.C73_accepted_single",
    "PoS.C73_unseal_then_check_fails"
   ],
   "note": ""
  },
  {
   "property": "C74",
   "status": "proved",
   "theorems": [
    "PoS.C74_accepted_iff",
    "PoS.C74_every_round"
   ],
   "note": ""
  },
  {
   "property": "C75",
   "status": "proved",
   "theorems": [
    "PoS.C75_root",
    "PoS.C75_file_root"
   ],
   "note": ""
  },
  {
   "property": "C76",
   "status": "proved",
   "theorems": [
    "PoS.C76_hash_value",
    "PoS.C76_multi_hash",
    "PoS.C76_first_constant_unused"
   ],
   "note": ""
  },
  {
   "property": "C77",
   "status": "proved",
   "theorems": [
    "PoS.C77_run",
    "PoS.C77_shipped"
   ],
   "note": ""
  },
  {
   "property": "C78",
   "status": "proved",
   "theorems": [
    "PoS.C78_success",
    "PoS.C78_shipped_static"
   ],
   "note": ""
  },
  {
   "property": "C79",
   "status": "proved",
   "theorems": [
    "PoS.C79_unseal_exact",
    "PoS.C79_decoder"
   ],
   "note": ""
  },
  {
   "property": "C80",
   "status": "proved",
   "theorems": [
    "PoS.C80_local",
    "PoS.C80_damage"
   ],
   "note": ""
  },
  {
   "property": "C81",
   "status": "proved",
   "theorems": [
    "PoS.C81_batch_exact",
    "PoS.C81_parallel_exact",
    "PoS.C81_verdict",
    "PoS.C81_verdict_parallel"
   ],
   "note": ""
  },
  {
   "property": "C82",
   "status": "proved",
   "theorems": [
    "PoS.C82_inverse",
    "PoS.C82_unique",
    "PoS.C82_file"
   ],
   "note": ""
  },
  {
   "property": "C83",
   "status": "proved",
   "theorems": [
    "PoS.C83_twin_accepted",
    "PoS.C83_shipped_twins",
    "PoS.C83_any_padding"
   ],
   "note": ""
  },
  {
   "property": "C84",
   "status": "proved",
   "theorems": [
    "PoS.C84_random_file"
   ],
   "note": ""
  },
  {
   "property": "C85",
   "status": "proved",
   "theorems": [
    "PoS.C85_encodings",
    "PoS.C85_retrieval"
   ],
   "note": ""
  },
  {
   "property": "C86",
   "status": "proved",
   "theorems": [
    "PoS.C86_first_round",
    "PoS.C86_one_round",
    "PoS.C86_shipped"
   ],
   "note": ""
  },
  {
   "property": "C87",
   "status": "proved",
   "theorems": [
    "PoS.C87_unseal",
    "PoS.C87_recover",
    "PoS.C87_verdict"
   ],
   "note": ""
  },
  {
   "property": "C88",
   "status": "proved",
   "theorems": [
    "PoS.C88_copies_differ"
   ],
   "note": ""
  },
  {
   "property": "C89",
   "status": "proved",
   "theorems": [
    "PoS.C89_agrees",
    "PoS.C89_long_modes",
    "PoS.C89_short_mode_2",
    "PoS.C89_other_modes"
   ],
   "note": ""
  },
  {
   "property": "C90",
   "status": "proved",
   "theorems": [
    "PoS.C90_same_runs",
    "PoS.C90_hash_modes",
    "PoS.C90_seal_exact",
    "PoS.C90_success",
    "PoS.C90_round_trip",
    "PoS.C90_random_access"
   ],
   "note": ""
  },
  {
   "property": "C91",
   "status": "proved",
   "theorems": [
    "PoS.C91_any_file",
    "PoS.C91_count",
    "PoS.C91_too_many"
   ],
   "note": ""
  },
  {
   "property": "C92",
   "status": "proved",
   "theorems": [
    "PoS.C92_loss_is_local",
    "PoS.C92_one_round_exact",
    "PoS.C92_at_most",
    "PoS.C92_retrieval_and_rounds"
   ],
   "note": ""
  },
  {
   "property": "C93",
   "status": "proved",
   "theorems": [
    "PoS.C93_parallel_verdict",
    "PoS.C93_plaintext_accepted",
    "PoS.C93_shipped"
   ],
   "note": ""
  },
  {
   "property": "C94",
   "status": "proved",
   "theorems": [
    "PoS.C94_batch",
    "PoS.C94_parallel",
    "PoS.C94_verdict",
    "PoS.C94_verdict_parallel",
    "PoS.C94_static_batch",
    "PoS.C94_static_parallel",
    "PoS.C94_static_verdict",
    "PoS.C94_static_verdict_parallel"
   ],
   "note": ""
  },
  {
   "property": "C95",
   "status": "proved",
   "theorems": [
    "PoS.C95_read",
    "PoS.C95_pad",
    "PoS.C95_seal_exact",
    "PoS.C95_unseal_exact",
    "PoS.C95_retrieve",
    "PoS.C95_complete",
    "PoS.C95_verify",
    "PoS.C95_honest_rejected"
   ],
   "note": ""
  },
  {
   "property": "C96",
   "status": "proved",
   "theorems": [
    "PoS.C96_unseal_stopped",
    "PoS.C96_resume",
    "PoS.C96_rerun",
    "PoS.C96_seal_stopped",
    "PoS.C96_seal_again",
    "PoS.C96_unseal_call",
    "PoS.C96_shipped_undo",
    "PoS.C96_calling_again"
   ],
   "note": ""
  },
  {
   "property": "C97",
   "status": "proved",
   "theorems": [
    "PoS.C97_short_units",
    "PoS.C97_short_units_lost",
    "PoS.C97_fitting_inputs",
    "PoS.C97_short_key",
    "PoS.C97_supported",
    "PoS.C97_round_trip",
    "PoS.C97_long_units"
   ],
   "note": ""
  },
  {
   "property": "C98",
   "status": "proved",
   "theorems": [
    "PoS.C98_count",
    "PoS.C98_certain",
    "PoS.C98_shipped"
   ],
   "note": ""
  },
  {
   "property": "C99",
   "status": "proved",
   "theorems": [
    "PoS.C99_exact",
    "PoS.C99_exponent",
    "PoS.C99_overflow",
    "PoS.C99_shipped"
   ],
   "note": ""
  },
  {
   "property": "C100",
   "status": "proved",
   "theorems": [
    "PoS.C100_pad_any",
    "PoS.C100_any_length",
    "PoS.C100_returned_iff",
    "PoS.C100_bad_layout"
   ],
   "note": ""
  },
  {
   "property": "C101",
   "status": "proved",
   "theorems": [
    "PoS.C101_same_runs",
    "PoS.C101_prepare",
    "PoS.C101_honest"
   ],
   "note": ""
  },
  {
   "property": "C102",
   "status": "proved",
   "theorems": [
    "PoS.C102_assignment",
    "PoS.C102_any_table",
    "PoS.C102_run",
    "PoS.C102_two_bits"
   ],
   "note": ""
  },
  {
   "property": "C103",
   "status": "proved",
   "theorems": [
    "PoS.C103_answers",
    "PoS.C103_round",
    "PoS.C103_release_round",
    "PoS.C103_run_is_round",
    "PoS.C103_ones_pass",
    "PoS.C103_honest",
    "PoS.C103_two_bits"
   ],
   "note": ""
  },
  {
   "property": "C104",
   "status": "proved",
   "theorems": [
    "PoS.C104_count",
    "PoS.C104_bound",
    "PoS.C104_release"
   ],
   "note": ""
  },
  {
   "property": "C105",
   "status": "proved",
   "theorems": [
    "PoS.C105_uniform",
    "PoS.C105_share",
    "PoS.C105_unfinished",
    "PoS.C105_round",
    "PoS.C105_rounds"
   ],
   "note": ""
  },
  {
   "property": "C106",
   "status": "proved",
   "theorems": [
    "PoS.C106_merkle",
    "PoS.C106_parts",
    "PoS.C106_total",
    "PoS.C106_shipped"
   ],
   "note": ""
  },
  {
   "property": "C107",
   "status": "proved",
   "theorems": [
    "PoS.C107_trial",
    "PoS.C107_composite"
   ],
   "note": ""
  },
  {
   "property": "C108",
   "status": "proved",
   "theorems": [
    "PoS.C108_untouched",
    "PoS.C108_run_again",
    "PoS.C108_shipped_run_again",
    "PoS.C108_public_data",
    "PoS.C108_without_iv",
    "PoS.C108_mixed_record"
   ],
   "note": ""
  },
  {
   "property": "C109",
   "status": "proved",
   "theorems": [
    "PoS.C109_depth",
    "PoS.C109_depth_needed"
   ],
   "note": ""
  },
  {
   "property": "C110",
   "status": "proved",
   "theorems": [
    "PoS.C110_primes_alike",
    "PoS.C110_composite",
    "PoS.C110_overall",
    "PoS.C110_reached"
   ],
   "note": ""
  },
  {
   "property": "C111",
   "status": "proved",
   "theorems": [
    "PoS.C111_tree",
    "PoS.C111_file_tree",
    "PoS.C111_verify",
    "PoS.C111_rounded_down"
   ],
   "note": ""
  },
  {
   "property": "C112",
   "status": "proved",
   "theorems": [
    "PoS.C112_numeral",
    "PoS.C112_load_iff",
    "PoS.C112_panics",
    "PoS.C112_suffix",
    "PoS.C112_unnoticed",
    "PoS.C112_not_unique"
   ],
   "note": ""
  },
  {
   "property": "C113",
   "status": "proved",
   "theorems": [
    "PoS.C113_complete",
    "PoS.C113_compress",
    "PoS.C113_merkle",
    "PoS.C113_prepare",
    "PoS.C113_round",
    "PoS.C113_unseen"
   ],
   "note": ""
  },
  {
   "property": "C114",
   "status": "proved",
   "theorems": [
    "PoS.C114_outcome",
    "PoS.C114_files",
    "PoS.C114_prefix",
    "PoS.C114_compress",
    "PoS.C114_seal",
    "PoS.C114_unseal",
    "PoS.C114_workflow"
   ],
   "note": ""
  },
  {
   "property": "C115",
   "status": "proved",
   "theorems": [
    "PoS.C115_complete",
    "PoS.C115_prepare",
    "PoS.C115_range",
    "PoS.C115_single",
    "PoS.C115_merkle",
    "PoS.C115_merkle_same",
    "PoS.C115_lost",
    "PoS.C115_run",
    "PoS.C115_check"
   ],
   "note": ""
  },
  {
   "property": "C116",
   "status": "proved",
   "theorems": [
    "PoS.C116_pad",
    "PoS.C116_compress",
    "PoS.C116_seal",
    "PoS.C116_unseal",
    "PoS.C116_prepare",
    "PoS.C116_range_blocks",
    "PoS.C116_range",
    "PoS.C116_verify",
    "PoS.C116_unseal_verify",
    "PoS.C116_tree",
    "PoS.C116_runs"
   ],
   "note": ""
  },
  {
   "property": "C117",
   "status": "proved",
   "theorems": [
    "PoS.C117_where",
    "PoS.C117_seal",
    "PoS.C117_success",
    "PoS.C117_release",
    "PoS.C117_release_decode",
    "PoS.C117_unseal",
    "PoS.C117_decode",
    "PoS.C117_parallel",
    "PoS.C117_workflow"
   ],
   "note": ""
  },
  {
   "property": "C118",
   "status": "proved",
   "theorems": [
    "PoS.C118_mark",
    "PoS.C118_stopped",
    "PoS.C118_again",
    "PoS.C118_flagged",
    "PoS.C118_torn_wrong",
    "PoS.C118_stale"
   ],
   "note": ""
  },
  {
   "property": "C119",
   "status": "proved",
   "theorems": [
    "PoS.C119_same",
    "PoS.C119_prepare",
    "PoS.C119_ranges",
    "PoS.C119_respond",
    "PoS.C119_range",
    "PoS.C119_sealing",
    "PoS.C119_unsealing",
    "PoS.C119_out_of_time",
    "PoS.C119_verdict"
   ],
   "note": ""
  },
  {
   "property": "C120",
   "status": "proved",
   "theorems": [
    "PoS.C120_sloth_tests",
    "PoS.C120_fixed_tests",
    "PoS.C120_merkle_test",
    "PoS.C120_circuit_tests",
    "PoS.C120_verdict_ignored"
   ],
   "note": ""
  },
  {
   "property": "C121",
   "status": "proved",
   "theorems": [
    "PoS.C121_first_difference",
    "PoS.C121_identifiers",
    "PoS.C121_same_identifiers",
    "PoS.C121_root",
    "PoS.C121_one_round",
    "PoS.C121_zero_not_bound"
   ],
   "note": ""
  },
  {
   "property": "C122",
   "status": "proved",
   "theorems": [
    "PoS.C122_layers",
    "PoS.C122_last_layers",
    "PoS.C122_stored",
    "PoS.C122_shipped",
    "PoS.C122_order"
   ],
   "note": ""
  },
  {
   "property": "C123",
   "status": "proved",
   "theorems": [
    "PoS.C123_long",
    "PoS.C123_long_large",
    "PoS.C123_short_large",
    "PoS.C123_short",
    "PoS.C123_prefixes",
    "PoS.C123_shipped"
   ],
   "note": ""
  },
  {
   "property": "C124",
   "status": "proved",
   "theorems": [
    "PoS.C124_update"
   ],
   "note": ""
  },
  {
   "property": "C125",
   "status": "proved",
   "theorems": [
    "PoS.C125_rounds",
    "PoS.C125_first_block",
    "PoS.C125_verdict"
   ],
   "note": ""
  },
  {
   "property": "C126",
   "status": "proved",
   "theorems": [
    "PoS.C126_strings",
    "PoS.C126_lost",
    "PoS.C126_retrieval",
    "PoS.C126_shipped"
   ],
   "note": ""
  },
  {
   "property": "C127",
   "status": "proved",
   "theorems": [
    "PoS.C127_units",
    "PoS.C127_copies",
    "PoS.C127_first_block",
    "PoS.C127_next",
    "PoS.C127_skipped"
   ],
   "note": ""
  },
  {
   "property": "C128",
   "status": "proved",
   "theorems": [
    "PoS.C128_block_cost",
    "PoS.C128_never_sealed"
   ],
   "note": ""
  },
  {
   "property": "C129",
   "status": "proved",
   "theorems": [
    "PoS.C129_check_any_file",
    "PoS.C129_old_files_ignored",
    "PoS.C129_pipeline_files",
    "PoS.C129_test_after_pipeline",
    "PoS.C129_shipped"
   ],
   "note": ""
  },
  {
   "property": "C130",
   "status": "proved",
   "theorems": [
    "PoS.C130_verdict",
    "PoS.C130_same",
    "PoS.C130_old_initial_vector"
   ],
   "note": ""
  },
  {
   "property": "C131",
   "status": "proved",
   "theorems": [
    "PoS.C131_outcome",
    "PoS.C131_seal_fails",
    "PoS.C131_round_fails",
    "PoS.C131_recovery",
    "PoS.C131_root_check",
    "PoS.C131_files"
   ],
   "note": ""
  },
  {
   "property": "C132",
   "status": "proved",
   "theorems": [
    "PoS.C132_outcome",
    "PoS.C132_files",
    "PoS.C132_repeat",
    "PoS.C132_stale"
   ],
   "note": ""
  },
  {
   "property": "C133",
   "status": "proved",
   "theorems": [
    "PoS.C133_circuits",
    "PoS.C133_bits",
    "PoS.C133_feistel",
    "PoS.C133_hash",
    "PoS.C133_multi"
   ],
   "note": ""
  },
  {
   "property": "C134",
   "status": "proved",
   "theorems": [
    "PoS.C134_append",
    "PoS.C134_exchange",
    "PoS.C134_not_binding"
   ],
   "note": ""
  }
 ]
}