'Verif.C01_first_cells_are_the_blob' depends on axioms: [propext, Classical.choice, Quot.sound]
'Verif.C02_cells_are_evaluations' depends on axioms: [propext, Classical.choice, Quot.sound]
'Verif.C02_accepts' depends on axioms: [propext, Classical.choice, Quot.sound]
'Verif.C03_commitment' depends on axioms: [propext, Classical.choice, Quot.sound]
'Verif.C04_num_proofs' depends on axioms: [propext, Classical.choice, Quot.sound]
'Verif.C04_proofs' depends on axioms: [propext, Classical.choice, Quot.sound]
'Verif.C04_proofs_precomp' depends on axioms: [propext, Classical.choice, Quot.sound]
'Verif.C05_completeness' depends on axioms: [propext, Classical.choice, Quot.sound]
'Verif.C05_completeness_precomp' depends on axioms: [propext, Classical.choice, Quot.sound]
'Verif.C06_decodes' depends on axioms: [propext, Classical.choice, Quot.sound]
'Verif.C06_batch' depends on axioms: [propext, Classical.choice, Quot.sound]
'Verif.C06_single' depends on axioms: [propext, Classical.choice, Quot.sound]
'Verif.C07_false_item' depends on axioms: [propext, Classical.choice, Quot.sound]
'Verif.C07_digests' depends on axioms: [propext, Classical.choice, Quot.sound]
'Verif.C08_few_secrets' depends on axioms: [propext, Classical.choice, Quot.sound]
'Verif.C08_unique' depends on axioms: [propext, Classical.choice, Quot.sound]
'Verif.C09_recovers_original' depends on axioms: [propext, Classical.choice, Quot.sound]
'Verif.C10_precomp' depends on axioms: [propext, Classical.choice, Quot.sound]
'Verif.C10_succeeds_iff_consistent' depends on axioms: [propext, Classical.choice, Quot.sound]
'Verif.C10_inconsistent_error' depends on axioms: [propext, Classical.choice, Quot.sound]
'Verif.C10_cells_unchanged' depends on axioms: [propext, Classical.choice, Quot.sound]
'Verif.C10_exactly_64' depends on axioms: [propext, Classical.choice, Quot.sound]
'Verif.C11_order_independent' depends on axioms: [propext, Classical.choice, Quot.sound]
'Verif.C12_validation' depends on axioms: [propext, Classical.choice, Quot.sound]
'Verif.C12_too_many_is_dead' depends on axioms: [propext, Classical.choice, Quot.sound]
'Verif.C13_validation' depends on axioms: [propext, Classical.choice, Quot.sound]
'Verif.C13_empty' depends on axioms: [propext, Classical.choice, Quot.sound]
'Verif.C13_wellFormed' depends on axioms: [propext, Classical.choice, Quot.sound]
'Verif.C13_commitment_index' depends on axioms: [propext, Classical.choice, Quot.sound]
'Verif.C14_verify' depends on axioms: [propext, Classical.choice, Quot.sound]
'Verif.C14_others' depends on axioms: [propext, Classical.choice, Quot.sound]
'Verif.C15_deduplication' depends on axioms: [propext, Classical.choice, Quot.sound]
'Verif.C16_length' depends on axioms: [propext, Classical.choice, Quot.sound]
'Verif.C16_injective' depends on axioms: [propext, Classical.choice, Quot.sound]
'Verif.C16_batch_binding' depends on axioms: [propext, Classical.choice, Quot.sound]
'Verif.C17_decode_iff' depends on axioms: [propext, Classical.choice, Quot.sound]
'Verif.C17_decode_encode' depends on axioms: [propext, Classical.choice, Quot.sound]
'Verif.C17_encode_decode' depends on axioms: [propext, Classical.choice, Quot.sound]
'Verif.C17_lengths' depends on axioms: [propext, Classical.choice, Quot.sound]
'Verif.C17_not_malleable' depends on axioms: [propext, Classical.choice, Quot.sound]
'Verif.C17_cell_roundtrip' depends on axioms: [propext, Classical.choice, Quot.sound]
'Verif.C17_blob' depends on axioms: [propext, Classical.choice, Quot.sound]
'Verif.C17_verify_cell' depends on axioms: [propext, Classical.choice, Quot.sound]
'Verif.C17_recover_cell' depends on axioms: [propext, Classical.choice, Quot.sound]
'Verif.C18_no_panic' depends on axioms: [propext, Classical.choice, Quot.sound]
'Verif.C18_precomp' depends on axioms: [propext, Classical.choice, Quot.sound]
'Verif.C19_sizes' depends on axioms: [propext, Classical.choice, Quot.sound]
'Verif.C19_inverse' depends on axioms: [propext, Classical.choice, Quot.sound]
'Verif.C19_coset' depends on axioms: [propext, Classical.choice, Quot.sound]
'Verif.C19_take' depends on axioms: [propext, Classical.choice, Quot.sound]
'Verif.C19_fft_scalars' depends on axioms: [propext, Classical.choice, Quot.sound]
'Verif.C19_fft_points' depends on axioms: [propext, Classical.choice, Quot.sound]
'Verif.C19_size_rounded' depends on axioms: [propext, Classical.choice, Quot.sound]
'Verif.C20_fft_ifft' depends on axioms: [propext, Classical.choice, Quot.sound]
'Verif.C20_fft_ifft_points' depends on axioms: [propext, Classical.choice, Quot.sound]
'Verif.C20_coset' depends on axioms: [propext, Classical.choice, Quot.sound]
'Verif.C21_decodes' depends on axioms: [propext, Classical.choice, Quot.sound]
'Verif.C21_rejects' depends on axioms: [propext, Classical.choice, Quot.sound]
'Verif.C21_codeword_length' depends on axioms: [propext, Classical.choice, Quot.sound]
'Verif.C21_capacity' depends on axioms: [propext, Classical.choice, Quot.sound]
'Verif.C21_bad_index' depends on axioms: [propext, Classical.choice, Quot.sound]
'Verif.C21_too_many' depends on axioms: [propext, Classical.choice, Quot.sound]
'Verif.C21_encode_too_long' depends on axioms: [propext, Classical.choice, Quot.sound]
'Verif.C21_large_block_panics' depends on axioms: [propext, Classical.choice, Quot.sound]
'Verif.C21_random' depends on axioms: [propext, Classical.choice, Quot.sound]
'Verif.C21_random_panics' depends on axioms: [propext, Classical.choice, Quot.sound]
'Verif.C21_patterns_agree' depends on axioms: [propext, Classical.choice, Quot.sound]
'Verif.C21_word_length' depends on axioms: [propext, Classical.choice, Quot.sound]
'Verif.C21_empty_word' depends on axioms: [propext, Classical.choice, Quot.sound]
'Verif.C22_recoding' depends on axioms: [propext, Classical.choice, Quot.sound]
'Verif.C22_width_25' depends on axioms: [propext, Classical.choice, Quot.sound]
'Verif.C22_width_31' depends on axioms: [propext, Quot.sound]
'Verif.C23_multi' depends on axioms: [propext, Classical.choice, Quot.sound]
'Verif.C23_single' depends on axioms: [propext, Classical.choice, Quot.sound]
'Verif.C23_never_wrong' depends on axioms: [propext, Classical.choice, Quot.sound]
'Verif.C23_short' depends on axioms: [propext, Classical.choice, Quot.sound]
'Verif.C23_panics' depends on axioms: [propext, Classical.choice, Quot.sound]
'Verif.C23_weierstrass' depends on axioms: [propext, Classical.choice, Quot.sound]
'Verif.C23_identity_wrong' depends on axioms: [propext, Classical.choice, Quot.sound]
'Verif.C24_no_precomp' depends on axioms: [propext, Classical.choice, Quot.sound]
'Verif.C24_precomp' depends on axioms: [propext, Classical.choice, Quot.sound]
'Verif.C24_never_wrong' depends on axioms: [propext, Classical.choice, Quot.sound]
'Verif.C24_too_many' depends on axioms: [propext, Classical.choice, Quot.sound]
'Verif.C24_few' depends on axioms: [propext, Classical.choice, Quot.sound]
'Verif.C24_width_0' depends on axioms: [propext, Classical.choice, Quot.sound]
'Verif.C24_identity_wrong' depends on axioms: [propext, Classical.choice, Quot.sound]
'Verif.C25_commitment_verification' depends on axioms: [propext, Classical.choice, Quot.sound]
'Verif.C25_errors_and_cells' depends on axioms: [propext, Classical.choice, Quot.sound]
'Verif.C25_same_or_panic' depends on axioms: [propext, Classical.choice, Quot.sound]
'Verif.C25_condition' depends on axioms: [propext, Classical.choice, Quot.sound]
'Verif.C25_few_secrets' depends on axioms: [propext, Classical.choice, Quot.sound]
'Verif.C25_panics' depends on axioms: [propext, Classical.choice, Quot.sound]
'Verif.C25_width_0' depends on axioms: [propext, Classical.choice, Quot.sound]
'Verif.C26_lincomb' depends on axioms: [propext, Classical.choice, Quot.sound]
'Verif.C26_never_none' depends on axioms: [propext, Classical.choice, Quot.sound]
'Verif.C27_batch_inverse' depends on axioms: [propext, Classical.choice, Quot.sound]
'Verif.C28_reverse_bit_order' depends on axioms: [propext, Classical.choice, Quot.sound]
'Verif.C28_panics' depends on axioms: [propext, Classical.choice, Quot.sound]
'Verif.C28_long_lists' depends on axioms: [propext, Classical.choice, Quot.sound]
'Verif.C28_log2' depends on axioms: [propext, Classical.choice, Quot.sound]
'Verif.C28_coset_gens' depends on axioms: [propext, Classical.choice, Quot.sound]
'Verif.C28_trailing_zeros' depends on axioms: [propext, Classical.choice, Quot.sound]
'Verif.C29_toeplitz' depends on axioms: [propext, Classical.choice, Quot.sound]
'Verif.C29_new' depends on axioms: [propext, Classical.choice, Quot.sound]
'Verif.C29_any_matrices' depends on axioms: [propext, Classical.choice, Quot.sound]
'Verif.C30_arithmetic' depends on axioms: [propext, Classical.choice, Quot.sound]
'Verif.C30_mul' depends on axioms: [propext, Classical.choice, Quot.sound]
'Verif.C30_vanishing' depends on axioms: [propext, Classical.choice, Quot.sound]
'Verif.C30_interpolate' depends on axioms: [propext, Classical.choice, Quot.sound]
'Verif.C30_interpolate_panics' depends on axioms: [propext, Classical.choice, Quot.sound]
'Verif.C31_exact' depends on axioms: [propext, Classical.choice, Quot.sound]
'Verif.C31_accepts' depends on axioms: [propext, Classical.choice, Quot.sound]
'Verif.C31_longer_wrong' depends on axioms: [propext, Classical.choice, Quot.sound]
'Verif.C31_context' depends on axioms: [propext, Classical.choice, Quot.sound]
'Verif.C32_blob_to_kzg_commitment' depends on axioms: [propext, Classical.choice, Quot.sound]
'Verif.C32_compute_cells_and_kzg_proofs' depends on axioms: [propext, Classical.choice, Quot.sound]
'Verif.C32_recover_cells_and_proofs' depends on axioms: [propext, Classical.choice, Quot.sound]
'Verif.C32_verify_cell_kzg_proof_batch' depends on axioms: [propext, Classical.choice, Quot.sound]
'Verif.C32_null_context' depends on axioms: [propext, Classical.choice, Quot.sound]
'Verif.C33_java_unchanged' depends on axioms: [propext, Classical.choice, Quot.sound]
'Verif.C33_java_negative' depends on axioms: [propext, Classical.choice, Quot.sound]
'Verif.C33_node_below' depends on axioms: [propext, Classical.choice, Quot.sound]
'Verif.C33_node_aliases' depends on axioms: [propext, Classical.choice, Quot.sound]
'Verif.C33_node_refuted' depends on axioms: [propext, Classical.choice, Quot.sound]
'Verif.C34_java_blob_to_kzg_commitment' depends on axioms: [propext, Classical.choice, Quot.sound]
'Verif.C34_java_compute_cells_and_kzg_proofs' depends on axioms: [propext, Classical.choice, Quot.sound]
'Verif.C34_java_verify_cell_kzg_proof_batch' depends on axioms: [propext, Classical.choice, Quot.sound]
'Verif.C34_java_recover_cells_and_kzg_proofs' depends on axioms: [propext, Classical.choice, Quot.sound]
'Verif.C34_java_null' depends on axioms: [propext, Classical.choice, Quot.sound]
'Verif.C34_node_blob' depends on axioms: [propext, Classical.choice, Quot.sound]
'Verif.C34_node_verify_cell_kzg_proof_batch' depends on axioms: [propext, Classical.choice, Quot.sound]
'Verif.C34_node_recover_cells_and_kzg_proofs' depends on axioms: [propext, Classical.choice, Quot.sound]
'Verif.C34_csharp_blob_to_kzg_commitment' depends on axioms: [propext, Classical.choice, Quot.sound]
'Verif.C34_csharp_compute_cells_and_kzg_proofs' depends on axioms: [propext, Classical.choice, Quot.sound]
'Verif.C34_csharp_recover_cells_and_kzg_proofs' depends on axioms: [propext, Classical.choice, Quot.sound]
'Verif.C34_csharp_verify_cell_kzg_proof_batch' depends on axioms: [propext, Classical.choice, Quot.sound]
'Verif.C35_go_partial' depends on axioms: [propext, Classical.choice, Quot.sound]
'Verif.C35_go_hides_errors' depends on axioms: [propext, Classical.choice, Quot.sound]
'Verif.C35_go_refuted' depends on axioms: [propext, Classical.choice, Quot.sound]
'Verif.C36_map' depends on axioms: [propext, Classical.choice, Quot.sound]
'Verif.C36_progress' depends on axioms: [propext, Quot.sound]
'Verif.C36_terminates' depends on axioms: [propext, Classical.choice, Quot.sound]
'Verif.C36_bounded' depends on axioms: [propext, Classical.choice, Quot.sound]
'Verif.C36_workers' depends on axioms: [propext, Quot.sound]
'Verif.C36_context' depends on axioms: [propext, Classical.choice, Quot.sound]
'Verif.C36_compute' depends on axioms: [propext, Classical.choice, Quot.sound]
'Verif.C36_recover' depends on axioms: [propext, Classical.choice, Quot.sound]
'Verif.C36_thread_count' depends on axioms: [propext, Classical.choice, Quot.sound]
'Verif.C37_prime' depends on axioms: [propext, Classical.choice, Quot.sound]
'Verif.C37_roots' depends on axioms: [propext, Classical.choice, Quot.sound]
'Verif.C37_coset_generator' depends on axioms: [propext, Classical.choice, Quot.sound]
'Verif.C38_g1_points' depends on axioms: [propext, Classical.choice, Quot.sound]
'Verif.C38_g2_points' depends on axioms: [propext, Classical.choice, Quot.sound]
'Verif.C38_from_json' depends on axioms: [propext, Classical.choice, Quot.sound]
'Verif.C38_from_json_unchecked' depends on axioms: [propext]
'Verif.C38_lagrange' depends on axioms: [propext, Classical.choice, Quot.sound]
'Verif.C38_context' depends on axioms: [propext, Classical.choice, Quot.sound]
'Verif.C38_context_panic' depends on axioms: [propext, Classical.choice, Quot.sound]
'Verif.C38_checked_context' depends on axioms: [propext, Classical.choice, Quot.sound]
'Verif.C39_refuses' depends on axioms: [propext, Classical.choice, Quot.sound]
'Verif.C39_every_size' depends on axioms: [propext, Classical.choice, Quot.sound]
'Verif.C39_reassembly' depends on axioms: [propext, Classical.choice, Quot.sound]
'Verif.C39_missing' depends on axioms: [propext, Classical.choice, Quot.sound]
'Verif.C40_distance' depends on axioms: [propext, Classical.choice, Quot.sound]
'Verif.C41_csharp_collected' depends on axioms: [propext, Classical.choice, Quot.sound]
'Verif.C41_csharp_partial' depends on axioms: [propext, Classical.choice, Quot.sound]
'Verif.C41_csharp_refuted' depends on axioms: [propext, Classical.choice, Quot.sound]
'Verif.C41_csharp_recover_collected' depends on axioms: [propext, Classical.choice, Quot.sound]
'Verif.C41_csharp_recover_partial' depends on axioms: [propext, Classical.choice, Quot.sound]
'Verif.C41_csharp_recover_refuted' depends on axioms: [propext, Classical.choice, Quot.sound]
'Verif.C41_csharp_verify_collected' depends on axioms: [propext, Classical.choice, Quot.sound]
'Verif.C41_csharp_verify_partial' depends on axioms: [propext, Classical.choice, Quot.sound]
'Verif.C41_csharp_verify_refuted' depends on axioms: [propext, Classical.choice, Quot.sound]
'Verif.C42_nim_blob_to_kzg_commitment' depends on axioms: [propext, Classical.choice, Quot.sound]
'Verif.C42_nim_compute_cells_and_proofs' depends on axioms: [propext, Classical.choice, Quot.sound]
'Verif.C42_nim_recover_cells_and_proofs' depends on axioms: [propext, Classical.choice, Quot.sound]
'Verif.C42_nim_verify_cell_kzg_proof_batch' depends on axioms: [propext, Classical.choice, Quot.sound]
'Verif.C43_nim_refuted' depends on axioms: [propext, Classical.choice, Quot.sound]
'Verif.C43_nim_partial' depends on axioms: [propext, Classical.choice, Quot.sound]
'Verif.C44_text_identifies_error' depends on axioms: [propext, Classical.choice, Quot.sound]
'Verif.C44_text_is_printable' depends on axioms: [propext, Classical.choice, Quot.sound]
'Verif.C44_text' depends on axioms: [propext, Classical.choice, Quot.sound]
'Verif.C45_c_contexts' depends on axioms: [propext, Classical.choice, Quot.sound]
'Verif.C45_java_object' depends on axioms: [propext, Classical.choice, Quot.sound]
'Verif.C45_csharp_object' depends on axioms: [propext, Classical.choice, Quot.sound]
'Verif.C45_nim_object' depends on axioms: [propext, Classical.choice, Quot.sound]
'Verif.C46_java_threads_refuted' depends on axioms: [propext, Classical.choice, Quot.sound]
'Verif.C46_java_threads_partial' depends on axioms: [propext, Classical.choice, Quot.sound]
'Verif.C46_java_sequential_partial' depends on axioms: [propext, Classical.choice, Quot.sound]
'Verif.C46_java_threads_exact' depends on axioms: [propext, Classical.choice, Quot.sound]
'Verif.C47_go_refuted' depends on axioms: [propext, Classical.choice, Quot.sound]
'Verif.C47_go_partial' depends on axioms: [propext, Classical.choice, Quot.sound]
'Verif.C48_commitment' depends on axioms: [propext, Classical.choice, Quot.sound]
'Verif.C49_cells_and_proofs' depends on axioms: [propext, Classical.choice, Quot.sound]
'Verif.C49_precomp' depends on axioms: [propext, Classical.choice, Quot.sound]
'Verif.C49_cells' depends on axioms: [propext, Classical.choice, Quot.sound]
'Verif.C50_verify' depends on axioms: [propext, Classical.choice, Quot.sound]
'Verif.C51_recover' depends on axioms: [propext, Classical.choice, Quot.sound]
'Verif.C51_results_agree' depends on axioms: [propext, Classical.choice, Quot.sound]
'Verif.C51_inconsistent_differs' depends on axioms: [propext, Classical.choice, Quot.sound]
'Verif.C51_exactly_64' depends on axioms: [propext, Classical.choice, Quot.sound]
'Verif.C51_precomp' depends on axioms: [propext, Classical.choice, Quot.sound]
'Verif.C52_generator' depends on axioms: [propext, Classical.choice, Quot.sound]
'Verif.C52_cyclic' depends on axioms: [propext, Classical.choice, Quot.sound]
'Verif.C52_pairing' depends on axioms: [propext, Classical.choice, Quot.sound]
'Verif.C53_decode' depends on axioms: [propext, Classical.choice, Quot.sound]
'Verif.C53_encode' depends on axioms: [propext, Classical.choice, Quot.sound]
'Verif.C53_refuse' depends on axioms: [propext, Classical.choice, Quot.sound]
'Verif.C53_injective' depends on axioms: [propext, Classical.choice, Quot.sound]
'Verif.C53_malformed' depends on axioms: [propext, Classical.choice, Quot.sound]
'Verif.C54_library' depends on axioms: [propext, Classical.choice, Quot.sound]
'Verif.C54_kzg' depends on axioms: [propext, Classical.choice, Quot.sound]
'Verif.C54_precomp' depends on axioms: [propext, Classical.choice, Quot.sound]
'Verif.C54_few_secrets' depends on axioms: [propext, Classical.choice, Quot.sound]
'Verif.C55_c' depends on axioms: [propext, Classical.choice, Quot.sound]
'Verif.C55_objects' depends on axioms: [propext, Classical.choice, Quot.sound]
'Verif.C55_node' depends on axioms: [propext, Classical.choice, Quot.sound]
'Verif.C55_width' depends on axioms: [propext, Classical.choice, Quot.sound]
'Verif.C55_threads' does not depend on any axioms'Verif.C55_defaults' does not depend on any axioms'Verif.C55_java_threads_partial' depends on axioms: [propext, Classical.choice, Quot.sound]
'Verif.C55_java_threads_refuted' depends on axioms: [propext, Quot.sound]
'Verif.C56_two_cells' depends on axioms: [propext, Classical.choice, Quot.sound]
'Verif.C56_batches' depends on axioms: [propext, Classical.choice, Quot.sound]
'Verif.C57_available' depends on axioms: [propext, Classical.choice, Quot.sound]
'Verif.C57_algebraic' depends on axioms: [propext, Classical.choice, Quot.sound]
'Verif.C57_precomp' depends on axioms: [propext, Classical.choice, Quot.sound]
'Verif.C58_async_result' depends on axioms: [propext, Classical.choice, Quot.sound]
'Verif.C58_async_torn' depends on axioms: [propext, Classical.choice, Quot.sound]
'Verif.C59_to_bytes' depends on axioms: [propext, Classical.choice, Quot.sound]
'Verif.C59_equals' depends on axioms: [propext, Classical.choice, Quot.sound]
'Verif.C59_hash_code' depends on axioms: [propext, Classical.choice, Quot.sound]
'Verif.C59_library' depends on axioms: [propext, Classical.choice, Quot.sound]
'Verif.C60_recover' depends on axioms: [propext, Classical.choice, Quot.sound]
'Verif.C60_verify' depends on axioms: [propext, Classical.choice, Quot.sound]
'Verif.C60_verify_large' depends on axioms: [propext, Classical.choice, Quot.sound]
'Verif.C61_embedded_soundness' depends on axioms: [propext, Classical.choice, Quot.sound]
'Verif.C61_embedded_binding' depends on axioms: [propext, Classical.choice, Quot.sound]
'Verif.C61_embedded_availability' depends on axioms: [propext, Classical.choice, Quot.sound]
'Verif.C61_soundness' depends on axioms: [propext, Classical.choice, Quot.sound]
'Verif.C61_binding' depends on axioms: [propext, Classical.choice, Quot.sound]
'Verif.C61_availability' depends on axioms: [propext, Classical.choice, Quot.sound]
'Verif.C62_open' depends on axioms: [propext, Classical.choice, Quot.sound]
'Verif.C62_open_panics' depends on axioms: [propext, Classical.choice, Quot.sound]
'Verif.C62_open_multi_point' depends on axioms: [propext, Classical.choice, Quot.sound]
'Verif.C62_references_agree' depends on axioms: [propext, Classical.choice, Quot.sound]
'Verif.C62_toeplitz' depends on axioms: [propext, Classical.choice, Quot.sound]
'Verif.C62_toeplitz_dense' depends on axioms: [propext, Classical.choice, Quot.sound]
'Verif.C62_toeplitz_corner' depends on axioms: [propext, Classical.choice, Quot.sound]
'Verif.C62_toeplitz_batch' depends on axioms: [propext, Classical.choice, Quot.sound]
'Verif.C62_prover' depends on axioms: [propext, Classical.choice, Quot.sound]
'Verif.C62_prover_longer_key' depends on axioms: [propext, Classical.choice, Quot.sound]
'Verif.C62_h_polys' depends on axioms: [propext, Classical.choice, Quot.sound]
'Verif.C62_verify' depends on axioms: [propext, Classical.choice, Quot.sound]
'Verif.C62_verify_panics' depends on axioms: [propext, Classical.choice, Quot.sound]
'Verif.C62_honest' depends on axioms: [propext, Classical.choice, Quot.sound]
'Verif.C62_test_keys' depends on axioms: [propext, Classical.choice, Quot.sound]
'Verif.C62_test_keys_weak' depends on axioms: [propext, Classical.choice, Quot.sound]
'Verif.C63_java' depends on axioms: [propext, Classical.choice, Quot.sound]
'Verif.C63_java_any' depends on axioms: [propext, Classical.choice, Quot.sound]
'Verif.C63_java_load' depends on axioms: [propext, Classical.choice, Quot.sound]
'Verif.C63_csharp' depends on axioms: [propext, Classical.choice, Quot.sound]
'Verif.C63_csharp_other' depends on axioms: [propext, Classical.choice, Quot.sound]
'Verif.C63_builds' depends on axioms: [propext, Classical.choice, Quot.sound]
'Verif.C63_builds_linux_arm' depends on axioms: [propext, Classical.choice, Quot.sound]
'Verif.C63_node_any' depends on axioms: [propext, Classical.choice, Quot.sound]
'Verif.C63_node' depends on axioms: [propext, Classical.choice, Quot.sound]
'Verif.C63_node_installed' depends on axioms: [propext, Classical.choice, Quot.sound]
'Verif.C63_node_packages' depends on axioms: [propext, Classical.choice, Quot.sound]
'Verif.C63_node_errors' depends on axioms: [propext, Classical.choice, Quot.sound]
'Verif.C63_release_target' depends on axioms: [propext, Classical.choice, Quot.sound]
'Verif.C63_release_all' depends on axioms: [propext, Classical.choice, Quot.sound]
'Verif.C63_release_java' depends on axioms: [propext, Classical.choice, Quot.sound]
'Verif.C63_release_csharp' depends on axioms: [propext, Classical.choice, Quot.sound]
'Verif.C63_release_node' depends on axioms: [propext, Classical.choice, Quot.sound]
'Verif.C64_once' depends on axioms: [propext, Classical.choice, Quot.sound]
'Verif.C64_linked' depends on axioms: [propext, Classical.choice, Quot.sound]
'Verif.C64_exclusive' depends on axioms: [propext, Classical.choice, Quot.sound]
'Verif.C64_progress' depends on axioms: [propext, Classical.choice, Quot.sound]
'Verif.C64_terminates' depends on axioms: [propext, Classical.choice, Quot.sound]
'Verif.C64_all_return' depends on axioms: [propext, Classical.choice, Quot.sound]
'Verif.C64_retry' depends on axioms: [propext, Classical.choice, Quot.sound]
'Verif.C65_flatten' depends on axioms: [propext, Quot.sound]
'Verif.C65_deflatten' depends on axioms: [propext, Classical.choice, Quot.sound]
'Verif.C65_round_trip' depends on axioms: [propext, Classical.choice, Quot.sound]
'Verif.C66_csharp_declarations' depends on axioms: [propext, Classical.choice, Quot.sound]
'Verif.C66_nim_declarations_partial' depends on axioms: [propext, Classical.choice, Quot.sound]
'Verif.C66_nim_result' depends on axioms: [propext, Classical.choice, Quot.sound]
'Verif.C66_nim_declarations_refuted' depends on axioms: [propext, Classical.choice, Quot.sound]
'Verif.C66_java_natives' depends on axioms: [propext, Classical.choice, Quot.sound]
'Verif.C66_java_handle' depends on axioms: [propext, Classical.choice, Quot.sound]
'Verif.C66_typescript_declarations' depends on axioms: [propext, Classical.choice, Quot.sound]
'Verif.C66_constants' depends on axioms: [propext]
'Verif.C66_nim_blob_to_kzg_commitment_partial' depends on axioms: [propext, Classical.choice, Quot.sound]
'Verif.C66_nim_error_lost_refuted' depends on axioms: [propext, Classical.choice, Quot.sound]
'Verif.C67_csharp_threads_refuted' depends on axioms: [propext, Classical.choice, Quot.sound]
'Verif.C67_csharp_threads_partial' depends on axioms: [propext, Quot.sound]
'Verif.C67_csharp_calls_partial' depends on axioms: [propext, Quot.sound]
'Verif.C67_csharp_threads_exact' depends on axioms: [propext, Classical.choice, Quot.sound]
'Verif.C68_same_functions' depends on axioms: [propext, Classical.choice, Quot.sound]
'Verif.C68_threads' depends on axioms: [propext, Classical.choice, Quot.sound]
'Verif.C68_no_race' depends on axioms: [propext, Classical.choice, Quot.sound]
'Verif.C68_progress' depends on axioms: [propext]
'Verif.C68_terminates' depends on axioms: [propext]
'Verif.C68_shared_output_races' depends on axioms: [propext, Classical.choice, Quot.sound]
'Verif.C69_same_functions' depends on axioms: [propext, Classical.choice, Quot.sound]
'Verif.C69_tree_borrows' depends on axioms: [propext, Classical.choice, Quot.sound]
'Verif.C69_stacked_borrows' depends on axioms: [propext, Classical.choice, Quot.sound]
'Verif.C69_stacked_borrows_violated' depends on axioms: [propext, Classical.choice, Quot.sound]
'Verif.C69_stacked_verified_in_indices' depends on axioms: [propext, Classical.choice, Quot.sound]
'Verif.C70_no_failure' depends on axioms: [propext, Classical.choice, Quot.sound]
'Verif.C70_ends' depends on axioms: [propext, Classical.choice, Quot.sound]
'Verif.C70_failure_at' depends on axioms: [propext, Classical.choice, Quot.sound]
'Verif.C70_disciplined_iff' depends on axioms: [propext, Classical.choice, Quot.sound]
'Verif.C70_failure_aborts' depends on axioms: [propext, Classical.choice, Quot.sound]
'Verif.C70_within_capacity' depends on axioms: [propext, Classical.choice, Quot.sound]
'Verif.C70_results_exceed_capacity' depends on axioms: [propext, Classical.choice, Quot.sound]
'Verif.C70_verification_exceeds_capacity' depends on axioms: [propext, Classical.choice, Quot.sound]
'Verif.C71_unchanged' depends on axioms: [propext, Classical.choice, Quot.sound]
'Verif.C71_replaced' depends on axioms: [propext, Classical.choice, Quot.sound]
'Verif.C71_null_blob' depends on axioms: [propext, Classical.choice, Quot.sound]
'Verif.C71_null_verify' depends on axioms: [propext, Classical.choice, Quot.sound]
'Verif.C71_null_recover' depends on axioms: [propext, Classical.choice, Quot.sound]
'Verif.C71_null_later_recover' depends on axioms: [propext, Classical.choice, Quot.sound]
'Verif.C71_null_later_verify' depends on axioms: [propext, Classical.choice, Quot.sound]
'Verif.C71_replaced_answers' depends on axioms: [propext, Classical.choice, Quot.sound]
'Verif.C72_commit' depends on axioms: [propext, Classical.choice, Quot.sound]
'Verif.C72_commit_go' depends on axioms: [propext, Classical.choice, Quot.sound]
'Verif.C72_prove' depends on axioms: [propext, Classical.choice, Quot.sound]
'Verif.C72_recover' depends on axioms: [propext, Classical.choice, Quot.sound]
'Verif.C72_verify' depends on axioms: [propext, Classical.choice, Quot.sound]
'Verif.C72_verifiers_agree' depends on axioms: [propext, Classical.choice, Quot.sound]
'Verif.C72_provers_agree' depends on axioms: [propext, Classical.choice, Quot.sound]
'Verif.C72_exchange' depends on axioms: [propext, Classical.choice, Quot.sound]
'Verif.C72_recovery' depends on axioms: [propext, Classical.choice, Quot.sound]
'Verif.C73_generator' depends on axioms: [propext, Classical.choice, Quot.sound]
'Verif.C73_cyclic' depends on axioms: [propext, Classical.choice, Quot.sound]
'Verif.C73_unchecked' depends on axioms: [propext, Classical.choice, Quot.sound]
'Verif.C73_decode' depends on axioms: [propext, Classical.choice, Quot.sound]
'Verif.C73_encode' depends on axioms: [propext, Classical.choice, Quot.sound]
'Verif.C73_refuse' depends on axioms: [propext, Classical.choice, Quot.sound]
'Verif.C73_injective' depends on axioms: [propext, Classical.choice, Quot.sound]
'Verif.C73_malformed' depends on axioms: [propext, Classical.choice, Quot.sound]
'Verif.C74_equation' depends on axioms: [propext, Classical.choice, Quot.sound]
'Verif.C74_nondegenerate' depends on axioms: [propext, Classical.choice, Quot.sound]
'Verif.C74_same_verdict' depends on axioms: [propext, Classical.choice, Quot.sound]
'Verif.C75_text' depends on axioms: [propext, Classical.choice, Quot.sound]
'Verif.C75_valid' depends on axioms: [propext, Classical.choice, Quot.sound]
'Verif.C75_points' depends on axioms: [propext, Classical.choice, Quot.sound]
'Verif.C75_library' depends on axioms: [propext, Classical.choice, Quot.sound]
'Verif.C76_points' depends on axioms: [propext, Classical.choice, Quot.sound]
'Verif.C76_valid' depends on axioms: [propext, Classical.choice, Quot.sound]
'Verif.C76_read' depends on axioms: [propext, Classical.choice, Quot.sound]
'Verif.C76_default' depends on axioms: [propext, Classical.choice, Quot.sound]
'Verif.C76_kzg' depends on axioms: [propext, Classical.choice, Quot.sound]
'Verif.C76_no_identity' depends on axioms: [propext, Classical.choice, Quot.sound]
'Verif.C76_precomp' depends on axioms: [propext, Classical.choice, Quot.sound]
'Verif.C77_capi' depends on axioms: [propext, Classical.choice, Quot.sound]
'Verif.C77_free' depends on axioms: [propext, Quot.sound]
'Verif.C77_settled' depends on axioms: [propext, Classical.choice, Quot.sound]
'Verif.C77_csharp' depends on axioms: [propext, Classical.choice, Quot.sound]
'Verif.C77_nim' depends on axioms: [propext, Classical.choice, Quot.sound]
'Verif.C77_go' depends on axioms: [propext, Classical.choice, Quot.sound]
'Verif.C77_go_leaks' depends on axioms: [propext, Classical.choice, Quot.sound]
'Verif.C78_new' depends on axioms: [propext, Classical.choice, Quot.sound]
'Verif.C78_table_exact' depends on axioms: [propext, Classical.choice, Quot.sound]
'Verif.C78_msm' depends on axioms: [propext, Classical.choice, Quot.sound]
'Verif.C78_over_read' depends on axioms: [propext, Classical.choice, Quot.sound]
'Verif.C79_no_undefined' depends on axioms: [propext, Classical.choice, Quot.sound]
'Verif.C79_finished' depends on axioms: [propext, Classical.choice, Quot.sound]
'Verif.C79_contexts' depends on axioms: [propext, Classical.choice, Quot.sound]
'Verif.C79_messages' depends on axioms: [propext, Classical.choice, Quot.sound]
'Verif.C79_no_race' depends on axioms: [propext, Classical.choice, Quot.sound]
'Verif.C79_frame' depends on axioms: [propext, Classical.choice, Quot.sound]
'Verif.C79_progress' depends on axioms: [propext, Classical.choice, Quot.sound]
'Verif.C79_rules_needed' depends on axioms: [propext, Classical.choice, Quot.sound]
'Verif.C79_nothing_left' depends on axioms: [propext, Classical.choice, Quot.sound]
'Verif.C79_sequential' depends on axioms: [propext, Classical.choice, Quot.sound]
'Verif.C80_proof_general' depends on axioms: [propext, Classical.choice, Quot.sound]
'Verif.C80_commitment_general' depends on axioms: [propext, Classical.choice, Quot.sound]
'Verif.C80_element_general' depends on axioms: [propext, Classical.choice, Quot.sound]
'Verif.C80_secret' depends on axioms: [propext, Classical.choice, Quot.sound]
'Verif.C80_proof' depends on axioms: [propext, Classical.choice, Quot.sound]
'Verif.C80_commitment' depends on axioms: [propext, Classical.choice, Quot.sound]
'Verif.C80_element' depends on axioms: [propext, Classical.choice, Quot.sound]
'Verif.C80_corrupted' depends on axioms: [propext, Classical.choice, Quot.sound]
'Verif.C80_two_cells' depends on axioms: [propext, Classical.choice, Quot.sound]
'Verif.C80_available' depends on axioms: [propext, Classical.choice, Quot.sound]
'Verif.C81_blob' depends on axioms: [propext, Classical.choice, Quot.sound]
'Verif.C81_verify' depends on axioms: [propext, Classical.choice, Quot.sound]
'Verif.C81_recover' depends on axioms: [propext, Classical.choice, Quot.sound]
'Verif.C81_unchanged' depends on axioms: [propext, Quot.sound]
'Verif.C81_accepted' depends on axioms: [propext, Classical.choice, Quot.sound]
'Verif.C81_mixture' depends on axioms: [propext, Classical.choice, Quot.sound]
'Verif.C82_blob' depends on axioms: [propext, Classical.choice, Quot.sound]
'Verif.C82_recover' depends on axioms: [propext, Classical.choice, Quot.sound]
'Verif.C82_verify' depends on axioms: [propext, Classical.choice, Quot.sound]
'Verif.C82_commitments_unwritten' depends on axioms: [propext, Classical.choice, Quot.sound]
'Verif.C82_unwritten' depends on axioms: [propext, Quot.sound]
'Verif.C82_gap' depends on axioms: [propext, Classical.choice, Quot.sound]
'Verif.C83_embedded_clients' depends on axioms: [propext, Classical.choice, Quot.sound]
'Verif.C83_embedded_published' depends on axioms: [propext, Classical.choice, Quot.sound]
'Verif.C83_collect' depends on axioms: [propext, Classical.choice, Quot.sound]
'Verif.C83_clients' depends on axioms: [propext, Classical.choice, Quot.sound]
'Verif.C83_columns' depends on axioms: [propext, Classical.choice, Quot.sound]
'Verif.C83_published' depends on axioms: [propext, Classical.choice, Quot.sound]
'Verif.C83_attained' depends on axioms: [propext, Classical.choice, Quot.sound]
'Verif.C84_columns' depends on axioms: [propext, Classical.choice, Quot.sound]
'Verif.C84_agree' depends on axioms: [propext, Classical.choice, Quot.sound]
'Verif.C84_nodes' depends on axioms: [propext, Classical.choice, Quot.sound]
'Verif.C84_embedded_columns' depends on axioms: [propext, Classical.choice, Quot.sound]
'Verif.C84_embedded_nodes' depends on axioms: [propext, Classical.choice, Quot.sound]
'Verif.Tests.C85_suite' depends on axioms: [propext, Quot.sound]
'Verif.Tests.C85_rust_commitment' depends on axioms: [propext, Classical.choice, Quot.sound]
'Verif.Tests.C85_rust_compute_prefix' depends on axioms: [propext, Classical.choice, Quot.sound]
'Verif.Tests.C85_rust_compute' depends on axioms: [propext, Classical.choice, Quot.sound]
'Verif.Tests.C85_rust_recover_prefix' depends on axioms: [propext, Classical.choice, Quot.sound]
'Verif.Tests.C85_rust_recover' depends on axioms: [propext, Classical.choice, Quot.sound]
'Verif.Tests.C85_rust_verify' depends on axioms: [propext, Classical.choice, Quot.sound]
'Verif.Tests.C85_java_commitment' depends on axioms: [propext, Classical.choice, Quot.sound]
'Verif.Tests.C85_java_compute' depends on axioms: [propext, Classical.choice, Quot.sound]
'Verif.Tests.C85_java_recover' depends on axioms: [propext, Classical.choice, Quot.sound]
'Verif.Tests.C85_java_verify' depends on axioms: [propext, Classical.choice, Quot.sound]
'Verif.Tests.C85_csharp_commitment' depends on axioms: [propext, Classical.choice, Quot.sound]
'Verif.Tests.C85_csharp_compute' depends on axioms: [propext, Classical.choice, Quot.sound]
'Verif.Tests.C85_csharp_recover' depends on axioms: [propext, Classical.choice, Quot.sound]
'Verif.Tests.C85_csharp_verify' depends on axioms: [propext, Classical.choice, Quot.sound]
'Verif.Tests.C85_node_commitment' depends on axioms: [propext, Classical.choice, Quot.sound]
'Verif.Tests.C85_node_compute' depends on axioms: [propext, Classical.choice, Quot.sound]
'Verif.Tests.C85_node_recover' depends on axioms: [propext, Classical.choice, Quot.sound]
'Verif.Tests.C85_node_verify' depends on axioms: [propext, Classical.choice, Quot.sound]
'Verif.Tests.C85_nim_commitment' depends on axioms: [propext, Classical.choice, Quot.sound]
'Verif.Tests.C85_nim_compute' depends on axioms: [propext, Classical.choice, Quot.sound]
'Verif.Tests.C85_nim_recover' depends on axioms: [propext, Classical.choice, Quot.sound]
'Verif.Tests.C85_nim_verify' depends on axioms: [propext, Classical.choice, Quot.sound]
'Verif.Tests.C85_go' depends on axioms: [propext]
'Verif.Tests.C85_library_commitment' depends on axioms: [propext, Classical.choice, Quot.sound]
'Verif.Tests.C85_library_compute' depends on axioms: [propext, Classical.choice, Quot.sound]
'Verif.Tests.C85_library_recover' depends on axioms: [propext, Classical.choice, Quot.sound]
'Verif.Tests.C85_library_verify' depends on axioms: [propext, Classical.choice, Quot.sound]
'Verif.Tests.C85_languages_commitment' depends on axioms: [propext, Classical.choice, Quot.sound]
'Verif.Tests.C85_languages_compute' depends on axioms: [propext, Classical.choice, Quot.sound]
'Verif.Tests.C85_languages_recover' depends on axioms: [propext, Classical.choice, Quot.sound]
'Verif.Tests.C85_languages_verify' depends on axioms: [propext, Classical.choice, Quot.sound]
'Verif.Tests.C85_vectors' depends on axioms: [propext, Classical.choice, Quot.sound]
'Verif.Tests.C85_gap_commitment' depends on axioms: [propext, Classical.choice, Quot.sound]
'Verif.Tests.C85_gap_prefix' depends on axioms: [propext, Classical.choice, Quot.sound]
'Verif.Tests.C85_malformed_blob' depends on axioms: [propext, Classical.choice, Quot.sound]
'Verif.Tests.C85_malformed_output' depends on axioms: [propext, Classical.choice, Quot.sound]
'Verif.C86_embedded_true' depends on axioms: [propext, Classical.choice, Quot.sound]
'Verif.C86_embedded_single' depends on axioms: [propext, Classical.choice, Quot.sound]
'Verif.C86_embedded_culprit' depends on axioms: [propext, Classical.choice, Quot.sound]
'Verif.C86_embedded_exact' depends on axioms: [propext, Classical.choice, Quot.sound]
'Verif.C86_embedded_nodes' depends on axioms: [propext, Classical.choice, Quot.sound]
'Verif.C86_true' depends on axioms: [propext, Classical.choice, Quot.sound]
'Verif.C86_single' depends on axioms: [propext, Classical.choice, Quot.sound]
'Verif.C86_parts' depends on axioms: [propext, Classical.choice, Quot.sound]
'Verif.C86_malformed' depends on axioms: [propext, Classical.choice, Quot.sound]
'Verif.C86_culprit' depends on axioms: [propext, Classical.choice, Quot.sound]
'Verif.C86_exact' depends on axioms: [propext, Classical.choice, Quot.sound]
'Verif.C86_nodes' depends on axioms: [propext, Classical.choice, Quot.sound]
'Verif.C86_gap' depends on axioms: [propext, Classical.choice, Quot.sound]
'Verif.C87_complete' depends on axioms: [propext, Classical.choice, Quot.sound]
'Verif.C87_necessary' depends on axioms: [propext, Classical.choice, Quot.sound]
'Verif.C87_powers_consistent' depends on axioms: [propext, Classical.choice, Quot.sound]
'Verif.C87_ceremony' depends on axioms: [propext, Classical.choice, Quot.sound]
'Verif.C87_embedded' depends on axioms: [propext, Classical.choice, Quot.sound]
'Verif.C87_shape' depends on axioms: [propext, Classical.choice, Quot.sound]
'Verif.C87_gap' depends on axioms: [propext, Classical.choice, Quot.sound]
'Verif.C88_nothing_learned' depends on axioms: [propext, Classical.choice, Quot.sound]
'Verif.C88_secret' depends on axioms: [propext, Classical.choice, Quot.sound]
'Verif.C88_cell' depends on axioms: [propext, Classical.choice, Quot.sound]
'Verif.C88_blobs' depends on axioms: [propext, Classical.choice, Quot.sound]
'Verif.C88_available' depends on axioms: [propext, Classical.choice, Quot.sound]
'Verif.C88_tight' depends on axioms: [propext, Classical.choice, Quot.sound]
'Verif.C88_bls' depends on axioms: [propext, Classical.choice, Quot.sound]
'Verif.C89_constant' depends on axioms: [propext, Classical.choice, Quot.sound]
'Verif.C89_commitments' depends on axioms: [propext, Classical.choice, Quot.sound]
'Verif.C89_cells' depends on axioms: [propext, Classical.choice, Quot.sound]
'Verif.C89_proof' depends on axioms: [propext, Classical.choice, Quot.sound]
'Verif.C89_recover' depends on axioms: [propext, Classical.choice, Quot.sound]
'Verif.C89_refused' depends on axioms: [propext, Classical.choice, Quot.sound]
'Verif.C89_constant_verify' depends on axioms: [propext, Classical.choice, Quot.sound]
'Verif.C89_verify' depends on axioms: [propext, Classical.choice, Quot.sound]
'Verif.C90_commitment' depends on axioms: [propext, Classical.choice, Quot.sound]
'Verif.C90_cells' depends on axioms: [propext, Classical.choice, Quot.sound]
'Verif.C90_recover' depends on axioms: [propext, Classical.choice, Quot.sound]
'Verif.C90_verify' depends on axioms: [propext, Classical.choice, Quot.sound]
'Verif.C90_independent' depends on axioms: [propext, Classical.choice, Quot.sound]
'Verif.C90_mixed' depends on axioms: [propext, Classical.choice, Quot.sound]
'Verif.C90_precomp' depends on axioms: [propext, Classical.choice, Quot.sound]
'Verif.C90_unique' depends on axioms: [propext, Classical.choice, Quot.sound]
'Verif.C91_poly_arithmetic' depends on axioms: [propext, Classical.choice, Quot.sound]
'Verif.C91_poly_points' depends on axioms: [propext, Classical.choice, Quot.sound]
'Verif.C91_root_of_unity' depends on axioms: [propext, Classical.choice, Quot.sound]
'Verif.C91_transforms' depends on axioms: [propext, Classical.choice, Quot.sound]
'Verif.C91_point_transform' depends on axioms: [propext, Classical.choice, Quot.sound]
'Verif.C91_lookup_table' depends on axioms: [propext, Classical.choice, Quot.sound]
'Verif.C91_footgun' depends on axioms: [propext, Classical.choice, Quot.sound]
'Verif.C91_scalar_mul' depends on axioms: [propext, Classical.choice, Quot.sound]
'Verif.C91_scalar_mul_wide' depends on axioms: [propext, Classical.choice, Quot.sound]
'Verif.C91_batch_inverse' depends on axioms: [propext, Classical.choice, Quot.sound]
'Verif.C91_reduce_bytes' depends on axioms: [propext, Classical.choice, Quot.sound]
'Verif.C91_blst_table' depends on axioms: [propext, Classical.choice, Quot.sound]
'Verif.C91_fixed_base' depends on axioms: [propext, Classical.choice, Quot.sound]
'Verif.C91_fixed_base_test' depends on axioms: [propext, Classical.choice, Quot.sound]
'Verif.C91_bench' depends on axioms: [propext, Classical.choice, Quot.sound]
'Verif.C91_batch_addition' depends on axioms: [propext, Classical.choice, Quot.sound]
'Verif.C91_cosets_equality' depends on axioms: [propext, Classical.choice, Quot.sound]
'Verif.C91_valid_cosets' depends on axioms: [propext, Classical.choice, Quot.sound]
'Verif.C91_data_first' depends on axioms: [propext, Classical.choice, Quot.sound]
'Verif.C91_data_spread' depends on axioms: [propext, Classical.choice, Quot.sound]
'Verif.C91_bit_reverse' depends on axioms: [propext, Classical.choice, Quot.sound]
'Verif.C91_powers' depends on axioms: [propext, Classical.choice, Quot.sound]
'Verif.C91_shift' depends on axioms: [propext, Classical.choice, Quot.sound]
'Verif.C91_dense_toeplitz' depends on axioms: [propext, Classical.choice, Quot.sound]
'Verif.C91_dense_product' depends on axioms: [propext, Classical.choice, Quot.sound]
'Verif.C91_circulant' depends on axioms: [propext, Classical.choice, Quot.sound]
'Verif.C91_data_shown' depends on axioms: [propext, Classical.choice, Quot.sound]
'Verif.C91_h_polys' depends on axioms: [propext, Classical.choice, Quot.sound]
'Verif.C91_fk20' depends on axioms: [propext, Classical.choice, Quot.sound]
'Verif.C91_references' depends on axioms: [propext, Classical.choice, Quot.sound]
'Verif.C91_data_in_cells' depends on axioms: [propext, Classical.choice, Quot.sound]
'Verif.C91_prove_verify' depends on axioms: [propext, Classical.choice, Quot.sound]
'Verif.C91_naive_opening' depends on axioms: [propext, Classical.choice, Quot.sound]
'Verif.C91_batch_toeplitz' depends on axioms: [propext, Classical.choice, Quot.sound]
'Verif.C91_batch_toeplitz_few' depends on axioms: [propext, Classical.choice, Quot.sound]
'Verif.C91_deduplicate' depends on axioms: [propext, Classical.choice, Quot.sound]
'Verif.C91_indices_unique' depends on axioms: [propext, Quot.sound]
'Verif.C91_vanishing_panics' depends on axioms: [propext, Classical.choice, Quot.sound]
'Verif.C91_recovery_no_erasures' depends on axioms: [propext, Classical.choice, Quot.sound]
'Verif.C91_vanishing_blocks' depends on axioms: [propext, Classical.choice, Quot.sound]
'Verif.C91_vanishing_random' depends on axioms: [propext, Classical.choice, Quot.sound]
'Verif.C91_recovery_random' depends on axioms: [propext, Classical.choice, Quot.sound]
'Verif.C91_recovery_blocks' depends on axioms: [propext, Classical.choice, Quot.sound]
'Verif.C92_java' depends on axioms: [propext, Classical.choice, Quot.sound]
'Verif.C92_go' depends on axioms: [propext, Classical.choice, Quot.sound]
'Verif.C93_cells' depends on axioms: [propext, Classical.choice, Quot.sound]
'Verif.C93_published' depends on axioms: [propext, Classical.choice, Quot.sound]
'Verif.C93_guess' depends on axioms: [propext, Classical.choice, Quot.sound]
'Verif.C93_embedded_cells' depends on axioms: [propext, Classical.choice, Quot.sound]
'Verif.C93_embedded_published' depends on axioms: [propext, Classical.choice, Quot.sound]
'Verif.C93_embedded_guess' depends on axioms: [propext, Classical.choice, Quot.sound]
'Verif.C94_erasure_decoding' depends on axioms: [propext, Classical.choice, Quot.sound]
'Verif.C94_erasure_word' depends on axioms: [propext, Classical.choice, Quot.sound]
'Verif.C94_polynomial' depends on axioms: [propext, Classical.choice, Quot.sound]
'Verif.C94_batch_inversion' depends on axioms: [propext, Classical.choice, Quot.sound]
'Verif.C94_fixed_base_msm' depends on axioms: [propext, Classical.choice, Quot.sound]
'Verif.C94_msm' depends on axioms: [propext, Classical.choice, Quot.sound]
'Verif.C94_fk20_panics' depends on axioms: [propext, Classical.choice, Quot.sound]
'Verif.C94_fk20_count' depends on axioms: [propext, Classical.choice, Quot.sound]
'Verif.C94_fk20_otherwise' depends on axioms: [propext, Classical.choice, Quot.sound]
'Verif.C94_fk20_zero' depends on axioms: [propext, Classical.choice, Quot.sound]
'Verif.C94_dummy_blob' depends on axioms: [propext, Classical.choice, Quot.sound]
'Verif.C94_init_context' depends on axioms: [propext, Classical.choice, Quot.sound]
'Verif.C94_compute_recover' depends on axioms: [propext, Classical.choice, Quot.sound]
'Verif.C94_few_secrets' depends on axioms: [propext, Classical.choice, Quot.sound]
'Verif.C94_verify' depends on axioms: [propext, Classical.choice, Quot.sound]
'Verif.C95_altered' depends on axioms: [propext, Classical.choice, Quot.sound]
'Verif.C95_zero' depends on axioms: [propext, Classical.choice, Quot.sound]
'Verif.C95_around' depends on axioms: [propext, Classical.choice, Quot.sound]
'Verif.C95_one' depends on axioms: [propext, Classical.choice, Quot.sound]
'Verif.C95_first' depends on axioms: [propext, Classical.choice, Quot.sound]
'Verif.C95_burst' depends on axioms: [propext, Classical.choice, Quot.sound]
'Verif.C95_alteration' depends on axioms: [propext, Classical.choice, Quot.sound]
'Verif.C95_sharp' depends on axioms: [propext, Classical.choice, Quot.sound]
'Verif.C95_embedded' depends on axioms: [propext, Classical.choice, Quot.sound]
'Verif.C96_elements' depends on axioms: [propext, Classical.choice, Quot.sound]
'Verif.C96_cells' depends on axioms: [propext, Classical.choice, Quot.sound]
'Verif.C96_limit' depends on axioms: [propext, Classical.choice, Quot.sound]
'Verif.C96_limit_cells' depends on axioms: [propext, Classical.choice, Quot.sound]
'Verif.C96_locate' depends on axioms: [propext, Classical.choice, Quot.sound]
'Verif.C96_contents' depends on axioms: [propext, Classical.choice, Quot.sound]
'Verif.C96_count' depends on axioms: [propext, Classical.choice, Quot.sound]
'Verif.C97_fibre' depends on axioms: [propext, Classical.choice, Quot.sound]
'Verif.C97_zero' depends on axioms: [propext, Classical.choice, Quot.sound]
'Verif.C97_distance' depends on axioms: [propext, Classical.choice, Quot.sound]
'Verif.C97_guess' depends on axioms: [propext, Classical.choice, Quot.sound]
'Verif.C97_attained' depends on axioms: [propext, Classical.choice, Quot.sound]
'Verif.C98_few' depends on axioms: [propext, Classical.choice, Quot.sound]
'Verif.C98_first' depends on axioms: [propext, Classical.choice, Quot.sound]
'Verif.C98_all_cells' depends on axioms: [propext, Classical.choice, Quot.sound]
'Verif.C98_one' depends on axioms: [propext, Classical.choice, Quot.sound]
'Verif.C98_sharp' depends on axioms: [propext, Classical.choice, Quot.sound]
'Verif.C98_extension' depends on axioms: [propext, Classical.choice, Quot.sound]
'Verif.C98_commitment' depends on axioms: [propext, Classical.choice, Quot.sound]
'Verif.C98_same_commitment' depends on axioms: [propext, Classical.choice, Quot.sound]
'Verif.C98_one_commitment' depends on axioms: [propext, Classical.choice, Quot.sound]
'Verif.C98_proofs' depends on axioms: [propext, Classical.choice, Quot.sound]
'Verif.C98_embedded' depends on axioms: [propext, Classical.choice, Quot.sound]
'Verif.C99_points' depends on axioms: [propext, Classical.choice, Quot.sound]
'Verif.C99_repeated' depends on axioms: [propext, Classical.choice, Quot.sound]
'Verif.C99_new' depends on axioms: [propext, Classical.choice, Quot.sound]
'Verif.C99_decides' depends on axioms: [propext, Classical.choice, Quot.sound]
'Verif.C99_any_values' depends on axioms: [propext, Classical.choice, Quot.sound]
'Verif.C99_short_key' depends on axioms: [propext, Classical.choice, Quot.sound]
'Verif.C99_not_a_power' depends on axioms: [propext, Classical.choice, Quot.sound]
'Verif.C99_uneven' depends on axioms: [propext, Classical.choice, Quot.sound]
'Verif.C99_complete' depends on axioms: [propext, Classical.choice, Quot.sound]
'Verif.C99_sound' depends on axioms: [propext, Classical.choice, Quot.sound]
'Verif.C99_prover' depends on axioms: [propext, Classical.choice, Quot.sound]
'Verif.C100_short_wrong' depends on axioms: [propext, Classical.choice, Quot.sound]
'Verif.C100_padded' depends on axioms: [propext, Classical.choice, Quot.sound]
'Verif.C100_panics' depends on axioms: [propext, Classical.choice, Quot.sound]
'Verif.C100_rejected' depends on axioms: [propext, Classical.choice, Quot.sound]
'Verif.C100_recovery' depends on axioms: [propext, Classical.choice, Quot.sound]
'Verif.C101_spread' depends on axioms: [propext, Classical.choice, Quot.sound]
'Verif.C101_thinned' depends on axioms: [propext, Classical.choice, Quot.sound]
'Verif.C101_right' depends on axioms: [propext, Classical.choice, Quot.sound]
'Verif.C101_same' depends on axioms: [propext, Classical.choice, Quot.sound]
'Verif.C101_panics' depends on axioms: [propext, Classical.choice, Quot.sound]
