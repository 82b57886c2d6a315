{
 "claims": [
  {
   "property": "C01",
   "status": "proved",
   "theorems": [
    "Verif.C01_first_cells_are_the_blob"
   ],
   "note": ""
  },
  {
   "property": "C02",
   "status": "proved",
   "theorems": [
    "Verif.C02_cells_are_evaluations",
    "Verif.C02_accepts"
   ],
   "note": ""
  },
  {
   "property": "C03",
   "status": "proved",
   "theorems": [
    "Verif.C03_commitment"
   ],
   "note": ""
  },
  {
   "property": "C04",
   "status": "proved",
   "theorems": [
    "Verif.C04_num_proofs",
    "Verif.C04_proofs",
    "Verif.C04_proofs_precomp"
   ],
   "note": ""
  },
  {
   "property": "C05",
   "status": "proved",
   "theorems": [
    "Verif.C05_completeness",
    "Verif.C05_completeness_precomp"
   ],
   "note": ""
  },
  {
   "property": "C06",
   "status": "proved",
   "theorems": [
    "Verif.C06_decodes",
    "Verif.C06_batch",
    "Verif.C06_single"
   ],
   "note": ""
  },
  {
   "property": "C07",
   "status": "proved",
   "theorems": [
    "Verif.C07_false_item",
    "Verif.C07_digests"
   ],
   "note": ""
  },
  {
   "property": "C08",
   "status": "proved",
   "theorems": [
    "Verif.C08_few_secrets",
    "Verif.C08_unique"
   ],
   "note": ""
  },
  {
   "property": "C09",
   "status": "proved",
   "theorems": [
    "Verif.C09_recovers_original"
   ],
   "note": ""
  },
  {
   "property": "C10",
   "status": "proved",
   "theorems": [
    "Verif.C10_precomp",
    "Verif.C10_succeeds_iff_consistent",
    "Verif.C10_inconsistent_error",
    "Verif.C10_cells_unchanged",
    "Verif.C10_exactly_64"
   ],
   "note": ""
  },
  {
   "property": "C11",
   "status": "proved",
   "theorems": [
    "Verif.C11_order_independent"
   ],
   "note": ""
  },
  {
   "property": "C12",
   "status": "proved",
   "theorems": [
    "Verif.C12_validation",
    "Verif.C12_too_many_is_dead"
   ],
   "note": ""
  },
  {
   "property": "C13",
   "status": "proved",
   "theorems": [
    "Verif.C13_validation",
    "Verif.C13_empty",
    "Verif.C13_wellFormed",
    "Verif.C13_commitment_index"
   ],
   "note": ""
  },
  {
   "property": "C14",
   "status": "proved",
   "theorems": [
    "Verif.C14_verify",
    "Verif.C14_others"
   ],
   "note": ""
  },
  {
   "property": "C15",
   "status": "proved",
   "theorems": [
    "Verif.C15_deduplication"
   ],
   "note": ""
  },
  {
   "property": "C16",
   "status": "proved",
   "theorems": [
    "Verif.C16_length",
    "Verif.C16_injective",
    "Verif.C16_batch_binding"
   ],
   "note": ""
  },
  {
   "property": "C17",
   "status": "proved",
   "theorems": [
    "Verif.C17_decode_iff",
    "Verif.C17_decode_encode",
    "Verif.C17_encode_decode",
    "Verif.C17_lengths",
    "Verif.C17_not_malleable",
    "Verif.C17_cell_roundtrip",
    "Verif.C17_blob",
    "Verif.C17_verify_cell",
    "Verif.C17_recover_cell"
   ],
   "note": ""
  },
  {
   "property": "C18",
   "status": "proved",
   "theorems": [
    "Verif.C18_no_panic",
    "Verif.C18_precomp"
   ],
   "note": ""
  },
  {
   "property": "C19",
   "status": "proved",
   "theorems": [
    "Verif.C19_sizes",
    "Verif.C19_inverse",
    "Verif.C19_coset",
    "Verif.C19_take",
    "Verif.C19_fft_scalars",
    "Verif.C19_fft_points",
    "Verif.C19_size_rounded"
   ],
   "note": ""
  },
  {
   "property": "C20",
   "status": "proved",
   "theorems": [
    "Verif.C20_fft_ifft",
    "Verif.C20_fft_ifft_points",
    "Verif.C20_coset"
   ],
   "note": ""
  },
  {
   "property": "C21",
   "status": "proved",
   "theorems": [
    "Verif.C21_decodes",
    "Verif.C21_rejects",
    "Verif.C21_codeword_length",
    "Verif.C21_capacity",
    "Verif.C21_bad_index",
    "Verif.C21_too_many",
    "Verif.C21_encode_too_long",
    "Verif.C21_large_block_panics",
    "Verif.C21_random",
    "Verif.C21_random_panics",
    "Verif.C21_patterns_agree",
    "Verif.C21_word_length",
    "Verif.C21_empty_word"
   ],
   "note": ""
  },
  {
   "property": "C22",
   "status": "proved",
   "theorems": [
    "Verif.C22_recoding",
    "Verif.C22_width_25",
    "Verif.C22_width_31"
   ],
   "note": ""
  },
  {
   "property": "C23",
   "status": "proved",
   "theorems": [
    "Verif.C23_multi",
    "Verif.C23_single",
    "Verif.C23_never_wrong",
    "Verif.C23_short",
    "Verif.C23_panics",
    "Verif.C23_weierstrass",
    "Verif.C23_identity_wrong"
   ],
   "note": ""
  },
  {
   "property": "C24",
   "status": "proved",
   "theorems": [
    "Verif.C24_no_precomp",
    "Verif.C24_precomp",
    "Verif.C24_never_wrong",
    "Verif.C24_too_many",
    "Verif.C24_few",
    "Verif.C24_width_0",
    "Verif.C24_identity_wrong"
   ],
   "note": ""
  },
  {
   "property": "C25",
   "status": "proved",
   "theorems": [
    "Verif.C25_commitment_verification",
    "Verif.C25_errors_and_cells",
    "Verif.C25_same_or_panic",
    "Verif.C25_condition",
    "Verif.C25_few_secrets",
    "Verif.C25_panics",
    "Verif.C25_width_0"
   ],
   "note": ""
  },
  {
   "property": "C26",
   "status": "proved",
   "theorems": [
    "Verif.C26_lincomb",
    "Verif.C26_never_none"
   ],
   "note": ""
  },
  {
   "property": "C27",
   "status": "proved",
   "theorems": [
    "Verif.C27_batch_inverse"
   ],
   "note": ""
  },
  {
   "property": "C28",
   "status": "proved",
   "theorems": [
    "Verif.C28_reverse_bit_order",
    "Verif.C28_panics",
    "Verif.C28_long_lists",
    "Verif.C28_log2",
    "Verif.C28_coset_gens",
    "Verif.C28_trailing_zeros"
   ],
   "note": ""
  },
  {
   "property": "C29",
   "status": "proved",
   "theorems": [
    "Verif.C29_toeplitz",
    "Verif.C29_new",
    "Verif.C29_any_matrices"
   ],
   "note": ""
  },
  {
   "property": "C30",
   "status": "proved",
   "theorems": [
    "Verif.C30_arithmetic",
    "Verif.C30_mul",
    "Verif.C30_vanishing",
    "Verif.C30_interpolate",
    "Verif.C30_interpolate_panics"
   ],
   "note": ""
  },
  {
   "property": "C31",
   "status": "proved",
   "theorems": [
    "Verif.C31_exact",
    "Verif.C31_accepts",
    "Verif.C31_longer_wrong",
    "Verif.C31_context"
   ],
   "note": ""
  },
  {
   "property": "C32",
   "status": "proved",
   "theorems": [
    "Verif.C32_blob_to_kzg_commitment",
    "Verif.C32_compute_cells_and_kzg_proofs",
    "Verif.C32_recover_cells_and_proofs",
    "Verif.C32_verify_cell_kzg_proof_batch",
    "Verif.C32_null_context"
   ],
   "note": ""
  },
  {
   "property": "C33",
   "status": "proved",
   "theorems": [
    "Verif.C33_java_unchanged",
    "Verif.C33_java_negative",
    "Verif.C33_node_below",
    "Verif.C33_node_aliases",
    "Verif.C33_node_refuted"
   ],
   "note": ""
  },
  {
   "property": "C34",
   "status": "proved",
   "theorems": [
    "Verif.C34_java_blob_to_kzg_commitment",
    "Verif.C34_java_compute_cells_and_kzg_proofs",
    "Verif.C34_java_verify_cell_kzg_proof_batch",
    "Verif.C34_java_recover_cells_and_kzg_proofs",
    "Verif.C34_java_null",
    "Verif.C34_node_blob",
    "Verif.C34_node_verify_cell_kzg_proof_batch",
    "Verif.C34_node_recover_cells_and_kzg_proofs",
    "Verif.C34_csharp_blob_to_kzg_commitment",
    "Verif.C34_csharp_compute_cells_and_kzg_proofs",
    "Verif.C34_csharp_recover_cells_and_kzg_proofs",
    "Verif.C34_csharp_verify_cell_kzg_proof_batch"
   ],
   "note": ""
  },
  {
   "property": "C35",
   "status": "partial",
   "theorems": [
    "Verif.C35_go_partial",
    "Verif.C35_go_hides_errors",
    "Verif.C35_go_refuted"
   ],
   "note": "The property is false for the code. C35_go_refuted gives a witness, C35_go_hides_errors shows that every rejected blob is one, C35_go_partial is the property for all other blobs."
  },
  {
   "property": "C36",
   "status": "proved",
   "theorems": [
    "Verif.C36_map",
    "Verif.C36_progress",
    "Verif.C36_terminates",
    "Verif.C36_bounded",
    "Verif.C36_workers",
    "Verif.C36_context",
    "Verif.C36_compute",
    "Verif.C36_recover",
    "Verif.C36_thread_count"
   ],
   "note": ""
  },
  {
   "property": "C37",
   "status": "proved",
   "theorems": [
    "Verif.C37_prime",
    "Verif.C37_roots",
    "Verif.C37_coset_generator"
   ],
   "note": ""
  },
  {
   "property": "C38",
   "status": "proved",
   "theorems": [
    "Verif.C38_g1_points",
    "Verif.C38_g2_points",
    "Verif.C38_from_json",
    "Verif.C38_from_json_unchecked",
    "Verif.C38_lagrange",
    "Verif.C38_context",
    "Verif.C38_context_panic",
    "Verif.C38_checked_context"
   ],
   "note": ""
  },
  {
   "property": "C39",
   "status": "proved",
   "theorems": [
    "Verif.C39_refuses",
    "Verif.C39_every_size",
    "Verif.C39_reassembly",
    "Verif.C39_missing"
   ],
   "note": ""
  },
  {
   "property": "C40",
   "status": "proved",
   "theorems": [
    "Verif.C40_distance"
   ],
   "note": ""
  },
  {
   "property": "C41",
   "status": "partial",
   "theorems": [
    "Verif.C41_csharp_collected",
    "Verif.C41_csharp_partial",
    "Verif.C41_csharp_refuted",
    "Verif.C41_csharp_recover_collected",
    "Verif.C41_csharp_recover_partial",
    "Verif.C41_csharp_recover_refuted",
    "Verif.C41_csharp_verify_collected",
    "Verif.C41_csharp_verify_partial",
    "Verif.C41_csharp_verify_refuted"
   ],
   "note": "The property is false for the code. C41_csharp_refuted, C41_csharp_recover_refuted and C41_csharp_verify_refuted give witnesses for the three functions (the last one returns true for a rejected batch). C41_csharp_collected and C41_csharp_recover_collected show it for every accepted input, C41_csharp_verify_collected says what is judged instead; C41_csharp_partial, C41_csharp_recover_partial and C41_csharp_verify_partial are the property for collections that move no array."
  },
  {
   "property": "C42",
   "status": "proved",
   "theorems": [
    "Verif.C42_nim_blob_to_kzg_commitment",
    "Verif.C42_nim_compute_cells_and_proofs",
    "Verif.C42_nim_recover_cells_and_proofs",
    "Verif.C42_nim_verify_cell_kzg_proof_batch"
   ],
   "note": ""
  },
  {
   "property": "C43",
   "status": "partial",
   "theorems": [
    "Verif.C43_nim_refuted",
    "Verif.C43_nim_partial"
   ],
   "note": "The property is false for the code. C43_nim_refuted gives a witness for every context and every way to render a status and an address; C43_nim_partial shows that the texts differ exactly if the messages had different addresses."
  },
  {
   "property": "C44",
   "status": "proved",
   "theorems": [
    "Verif.C44_text_identifies_error",
    "Verif.C44_text_is_printable",
    "Verif.C44_text"
   ],
   "note": ""
  },
  {
   "property": "C45",
   "status": "proved",
   "theorems": [
    "Verif.C45_c_contexts",
    "Verif.C45_java_object",
    "Verif.C45_csharp_object",
    "Verif.C45_nim_object"
   ],
   "note": ""
  },
  {
   "property": "C46",
   "status": "partial",
   "theorems": [
    "Verif.C46_java_threads_refuted",
    "Verif.C46_java_threads_partial",
    "Verif.C46_java_sequential_partial",
    "Verif.C46_java_threads_exact"
   ],
   "note": "The property is false for the code. C46_java_threads_refuted gives three witnesses; C46_java_threads_partial is the property for threads that do not call destroy, C46_java_sequential_partial for threads whose calls do not overlap. C46_java_threads_exact says which sets of calls can lead to undefined behaviour: those with destroy and at least one other call."
  },
  {
   "property": "C47",
   "status": "partial",
   "theorems": [
    "Verif.C47_go_refuted",
    "Verif.C47_go_partial"
   ],
   "note": "The property is false for the code. C47_go_refuted shows it for every live context; C47_go_partial is the property for callers that use the object later."
  },
  {
   "property": "C48",
   "status": "proved",
   "theorems": [
    "Verif.C48_commitment"
   ],
   "note": ""
  },
  {
   "property": "C49",
   "status": "proved",
   "theorems": [
    "Verif.C49_cells_and_proofs",
    "Verif.C49_precomp",
    "Verif.C49_cells"
   ],
   "note": ""
  },
  {
   "property": "C50",
   "status": "proved",
   "theorems": [
    "Verif.C50_verify"
   ],
   "note": ""
  },
  {
   "property": "C51",
   "status": "proved",
   "theorems": [
    "Verif.C51_recover",
    "Verif.C51_results_agree",
    "Verif.C51_inconsistent_differs",
    "Verif.C51_exactly_64",
    "Verif.C51_precomp"
   ],
   "note": ""
  },
  {
   "property": "C52",
   "status": "proved",
   "theorems": [
    "Verif.C52_generator",
    "Verif.C52_cyclic",
    "Verif.C52_pairing"
   ],
   "note": ""
  },
  {
   "property": "C53",
   "status": "proved",
   "theorems": [
    "Verif.C53_decode",
    "Verif.C53_encode",
    "Verif.C53_refuse",
    "Verif.C53_injective",
    "Verif.C53_malformed"
   ],
   "note": ""
  },
  {
   "property": "C54",
   "status": "proved",
   "theorems": [
    "Verif.C54_library",
    "Verif.C54_kzg",
    "Verif.C54_precomp",
    "Verif.C54_few_secrets"
   ],
   "note": ""
  },
  {
   "property": "C55",
   "status": "proved",
   "theorems": [
    "Verif.C55_c",
    "Verif.C55_objects",
    "Verif.C55_node",
    "Verif.C55_width",
    "Verif.C55_threads",
    "Verif.C55_defaults",
    "Verif.C55_java_threads_partial",
    "Verif.C55_java_threads_refuted"
   ],
   "note": "False for Java thread counts outside 0 to 2^32 - 1: C55_java_threads_refuted gives the count used and three witnesses; C55_java_threads_partial is the property for the other counts. The other parts hold without restriction."
  },
  {
   "property": "C56",
   "status": "proved",
   "theorems": [
    "Verif.C56_two_cells",
    "Verif.C56_batches"
   ],
   "note": ""
  },
  {
   "property": "C57",
   "status": "proved",
   "theorems": [
    "Verif.C57_available",
    "Verif.C57_algebraic",
    "Verif.C57_precomp"
   ],
   "note": ""
  },
  {
   "property": "C58",
   "status": "proved",
   "theorems": [
    "Verif.C58_async_result",
    "Verif.C58_async_torn"
   ],
   "note": ""
  },
  {
   "property": "C59",
   "status": "proved",
   "theorems": [
    "Verif.C59_to_bytes",
    "Verif.C59_equals",
    "Verif.C59_hash_code",
    "Verif.C59_library"
   ],
   "note": ""
  },
  {
   "property": "C60",
   "status": "proved",
   "theorems": [
    "Verif.C60_recover",
    "Verif.C60_verify",
    "Verif.C60_verify_large"
   ],
   "note": ""
  },
  {
   "property": "C61",
   "status": "proved",
   "theorems": [
    "Verif.C61_embedded_soundness",
    "Verif.C61_embedded_binding",
    "Verif.C61_embedded_availability",
    "Verif.C61_soundness",
    "Verif.C61_binding",
    "Verif.C61_availability"
   ],
   "note": ""
  },
  {
   "property": "C62",
   "status": "proved",
   "theorems": [
    "Verif.C62_open",
    "Verif.C62_open_panics",
    "Verif.C62_open_multi_point",
    "Verif.C62_references_agree",
    "Verif.C62_toeplitz",
    "Verif.C62_toeplitz_dense",
    "Verif.C62_toeplitz_corner",
    "Verif.C62_toeplitz_batch",
    "Verif.C62_prover",
    "Verif.C62_prover_longer_key",
    "Verif.C62_h_polys",
    "Verif.C62_verify",
    "Verif.C62_verify_panics",
    "Verif.C62_honest",
    "Verif.C62_test_keys",
    "Verif.C62_test_keys_weak"
   ],
   "note": ""
  },
  {
   "property": "C63",
   "status": "proved",
   "theorems": [
    "Verif.C63_java",
    "Verif.C63_java_any",
    "Verif.C63_java_load",
    "Verif.C63_csharp",
    "Verif.C63_csharp_other",
    "Verif.C63_builds",
    "Verif.C63_builds_linux_arm",
    "Verif.C63_node_any",
    "Verif.C63_node",
    "Verif.C63_node_installed",
    "Verif.C63_node_packages",
    "Verif.C63_node_errors",
    "Verif.C63_release_target",
    "Verif.C63_release_all",
    "Verif.C63_release_java",
    "Verif.C63_release_csharp",
    "Verif.C63_release_node"
   ],
   "note": ""
  },
  {
   "property": "C64",
   "status": "proved",
   "theorems": [
    "Verif.C64_once",
    "Verif.C64_linked",
    "Verif.C64_exclusive",
    "Verif.C64_progress",
    "Verif.C64_terminates",
    "Verif.C64_all_return",
    "Verif.C64_retry"
   ],
   "note": ""
  },
  {
   "property": "C65",
   "status": "proved",
   "theorems": [
    "Verif.C65_flatten",
    "Verif.C65_deflatten",
    "Verif.C65_round_trip"
   ],
   "note": ""
  },
  {
   "property": "C66",
   "status": "partial",
   "theorems": [
    "Verif.C66_csharp_declarations",
    "Verif.C66_nim_declarations_partial",
    "Verif.C66_nim_result",
    "Verif.C66_nim_declarations_refuted",
    "Verif.C66_java_natives",
    "Verif.C66_java_handle",
    "Verif.C66_typescript_declarations",
    "Verif.C66_constants",
    "Verif.C66_nim_blob_to_kzg_commitment_partial",
    "Verif.C66_nim_error_lost_refuted"
   ],
   "note": "False for Nim on big-endian machines: the enumeration CResultStatus of header.nim has one byte, that of the library four, so every error looks like a success. C66_nim_declarations_refuted shows that no function with a result agrees there, C66_nim_error_lost_refuted that blobToKZGCommitment returns zeros for every refused blob. C66_nim_declarations_partial, C66_nim_result and C66_nim_blob_to_kzg_commitment_partial are the property on little-endian machines. C#, Java, Node and the constants are proved in full."
  },
  {
   "property": "C67",
   "status": "partial",
   "theorems": [
    "Verif.C67_csharp_threads_refuted",
    "Verif.C67_csharp_threads_partial",
    "Verif.C67_csharp_calls_partial",
    "Verif.C67_csharp_threads_exact"
   ],
   "note": "The property is false for the code. C67_csharp_threads_refuted gives four witnesses: Dispose while a call is about to enter the native function, Dispose while a call is inside it, two calls of Dispose, and a call after Dispose, which ends the process. C67_csharp_threads_partial is the property for executions in which Dispose runs alone, C67_csharp_calls_partial for threads that do not call Dispose. C67_csharp_threads_exact says which sets of calls can lead to undefined behaviour (Dispose and at least one other call) and which can abort the process (Dispose and another method)."
  },
  {
   "property": "C68",
   "status": "proved",
   "theorems": [
    "Verif.C68_same_functions",
    "Verif.C68_threads",
    "Verif.C68_no_race",
    "Verif.C68_progress",
    "Verif.C68_terminates",
    "Verif.C68_shared_output_races"
   ],
   "note": "C68_threads is the main statement, C68_no_race the absence of data races, C68_progress and C68_terminates that every call ends. C68_same_functions connects the programs with the functions of C32. C68_shared_output_races shows that the condition on outputs is needed."
  },
  {
   "property": "C69",
   "status": "proved",
   "theorems": [
    "Verif.C69_same_functions",
    "Verif.C69_tree_borrows",
    "Verif.C69_stacked_borrows",
    "Verif.C69_stacked_borrows_violated",
    "Verif.C69_stacked_verified_in_indices"
   ],
   "note": "C69_tree_borrows: all valid calls respect Tree Borrows. C69_stacked_borrows: the calls that respect Stacked Borrows; C69_stacked_borrows_violated and C69_stacked_verified_in_indices: those that do not. C69_same_functions connects the model with references to the functions of C32. The aliasing rules are not part of the Rust reference; both proposals are modelled without protectors, interior mutability and two-phase borrows, in Spec/Aliasing."
  },
  {
   "property": "C70",
   "status": "proved",
   "theorems": [
    "Verif.C70_no_failure",
    "Verif.C70_ends",
    "Verif.C70_failure_at",
    "Verif.C70_disciplined_iff",
    "Verif.C70_failure_aborts",
    "Verif.C70_within_capacity",
    "Verif.C70_results_exceed_capacity",
    "Verif.C70_verification_exceeds_capacity"
   ],
   "note": "C70_no_failure: no call fails. C70_ends, C70_disciplined_iff: all virtual machines. C70_failure_at: a failure of any call that the JNI specification allows to fail aborts. C70_failure_aborts: for every blob with a commitment, one failing allocation aborts the process. C70_within_capacity, C70_results_exceed_capacity, C70_verification_exceeds_capacity: local references. The calls behind each function of the jni crate (not in the repository) are an assumption, listed in Model/Jni."
  },
  {
   "property": "C71",
   "status": "proved",
   "theorems": [
    "Verif.C71_unchanged",
    "Verif.C71_replaced",
    "Verif.C71_null_blob",
    "Verif.C71_null_verify",
    "Verif.C71_null_recover",
    "Verif.C71_null_later_recover",
    "Verif.C71_null_later_verify",
    "Verif.C71_replaced_answers"
   ],
   "note": "C71_unchanged, C71_null_blob, C71_null_verify, C71_null_recover: no concurrent change, or null at the check. C71_replaced, C71_replaced_answers: items replaced between check and use. C71_null_later_recover, C71_null_later_verify: undefined behaviour. The contents of an array do not change during a call in this model (a data race on contents is outside of it)."
  },
  {
   "property": "C72",
   "status": "proved",
   "theorems": [
    "Verif.C72_commit",
    "Verif.C72_commit_go",
    "Verif.C72_prove",
    "Verif.C72_recover",
    "Verif.C72_verify",
    "Verif.C72_verifiers_agree",
    "Verif.C72_provers_agree",
    "Verif.C72_exchange",
    "Verif.C72_recovery"
   ],
   "note": "C72_commit, C72_prove, C72_recover, C72_verify: what a caller gets in each language. C72_verifiers_agree, C72_provers_agree: no disagreement. C72_exchange, C72_recovery: honest data is accepted and recovered everywhere. Calls that end the process (out of memory, panic) are not answers. C# without a collection during the call (C41), Go only for blobs that the library accepts (C35)."
  },
  {
   "property": "C73",
   "status": "proved",
   "theorems": [
    "Verif.C73_generator",
    "Verif.C73_cyclic",
    "Verif.C73_unchecked",
    "Verif.C73_decode",
    "Verif.C73_encode",
    "Verif.C73_refuse",
    "Verif.C73_injective",
    "Verif.C73_malformed"
   ],
   "note": "C73_generator, C73_cyclic: the group. C73_unchecked (both groups), C73_decode, C73_encode, C73_refuse, C73_injective, C73_malformed: the encoding. Example: a point of the curve outside G2 is read without the test and refused with it. That blst computes this group and format is an assumption (blst is not in the repository)."
  },
  {
   "property": "C74",
   "status": "proved",
   "theorems": [
    "Verif.C74_equation",
    "Verif.C74_nondegenerate",
    "Verif.C74_same_verdict"
   ],
   "note": "C74_equation, C74_nondegenerate, C74_same_verdict. Examples: pairings with values in the scalars and in G2. Miller loop and final exponentiation are not modelled: that blst's pairing is bilinear and not trivial is an assumption."
  },
  {
   "property": "C75",
   "status": "proved",
   "theorems": [
    "Verif.C75_text",
    "Verif.C75_valid",
    "Verif.C75_points",
    "Verif.C75_library"
   ],
   "note": "C75_text, C75_valid, C75_points: the readers and the validation. C75_library: commitments and verdicts. JSON parsing is not modelled; for the embedded file see C76."
  },
  {
   "property": "C76",
   "status": "proved",
   "theorems": [
    "Verif.C76_points",
    "Verif.C76_valid",
    "Verif.C76_read",
    "Verif.C76_default",
    "Verif.C76_kzg",
    "Verif.C76_no_identity",
    "Verif.C76_precomp"
   ],
   "note": "C76_points, C76_read, C76_valid: the content of the file, checked in the kernel point by point (on the curve; subgroup by the endomorphism for G1 and by multiplication with r - 1 for G2). C76_default, C76_kzg: the default context. The transcription of the strings of the JSON file into Model/EmbeddedSetup is by a script and trusted; JSON parsing is not modelled. Whether the points are powers of one tau cannot be told without a pairing computation and is a hypothesis of C76_kzg only. C76_no_identity, C76_precomp: with width 8 precomputation; point 4032 is compared in the kernel with the 128 multiples of the generator by 128th roots of unity, so tau^516096 is not 1 and no FK20 base point is at infinity."
  },
  {
   "property": "C77",
   "status": "proved",
   "theorems": [
    "Verif.C77_capi",
    "Verif.C77_free",
    "Verif.C77_settled",
    "Verif.C77_csharp",
    "Verif.C77_nim",
    "Verif.C77_go",
    "Verif.C77_go_leaks"
   ],
   "note": "C77_capi, C77_free, C77_settled: for all arguments and states. C77_csharp, C77_nim: over programs of any length. C77_go, C77_go_leaks: the Go wrapper leaks one message per rejected blob; the statement says so. Java and Node call the Rust library directly and get no C messages."
  },
  {
   "property": "C78",
   "status": "proved",
   "theorems": [
    "Verif.C78_new",
    "Verif.C78_table_exact",
    "Verif.C78_msm",
    "Verif.C78_over_read"
   ],
   "note": "C78_new, C78_msm, C78_over_read. The memory that blst touches and the sum it computes are assumed as its header documents them (Model/BlstMsm); nothing is assumed of a table with an identity point. The type is public, but only benchmarks and tests use it."
  },
  {
   "property": "C79",
   "status": "proved",
   "theorems": [
    "Verif.C79_no_undefined",
    "Verif.C79_finished",
    "Verif.C79_contexts",
    "Verif.C79_messages",
    "Verif.C79_no_race",
    "Verif.C79_frame",
    "Verif.C79_progress",
    "Verif.C79_rules_needed",
    "Verif.C79_nothing_left",
    "Verif.C79_sequential"
   ],
   "note": "C79_no_undefined, C79_finished, C79_no_race, C79_frame, C79_contexts, C79_messages, C79_nothing_left: the statement. C79_progress: every call in progress can be brought to its end. C79_sequential: a call that runs while the others wait does what the function of C32 does. C79_rules_needed: the rules are needed. A call may be given neither memory of an error message nor memory that another call in progress writes; reading a shared input is allowed."
  },
  {
   "property": "C80",
   "status": "proved",
   "theorems": [
    "Verif.C80_proof_general",
    "Verif.C80_commitment_general",
    "Verif.C80_element_general",
    "Verif.C80_secret",
    "Verif.C80_proof",
    "Verif.C80_commitment",
    "Verif.C80_element",
    "Verif.C80_corrupted",
    "Verif.C80_two_cells",
    "Verif.C80_available"
   ],
   "note": "C80_secret reads off the file that the secret is none of the 8192 evaluation points (128 multiples of the generator are compared with one point of the file in the kernel). C80_proof, C80_commitment, C80_element, C80_corrupted: uniqueness of each part given the others, for every context made from the embedded setup; the _general theorems state the same for any powers-of-tau setup whose secret is outside the coset. C80_two_cells, C80_available: C56 and C57 without the exception. Assumed: the points of the file are the powers of some number (not provable without the secret or a concrete pairing), and the pairing is bilinear and not trivial on the generators."
  },
  {
   "property": "C81",
   "status": "proved",
   "theorems": [
    "Verif.C81_blob",
    "Verif.C81_verify",
    "Verif.C81_recover",
    "Verif.C81_unchanged",
    "Verif.C81_accepted",
    "Verif.C81_mixture"
   ],
   "note": "C81_blob (both methods with a blob), C81_verify, C81_recover: the native method with changing arguments equals the native method of C70 with the arguments seen. C81_unchanged: what is seen of constant arrays is their contents, and nothing else. C81_accepted: a verification that returns true. C81_mixture: arguments seen that were never there at one moment. Assumed: the virtual machine tests the bounds of a region before it copies, and copies each byte once, each long in at most two halves (JLS 17.7)."
  },
  {
   "property": "C82",
   "status": "proved",
   "theorems": [
    "Verif.C82_blob",
    "Verif.C82_recover",
    "Verif.C82_verify",
    "Verif.C82_commitments_unwritten",
    "Verif.C82_unwritten",
    "Verif.C82_gap"
   ],
   "note": "C82_blob, C82_recover, C82_verify: what the methods do for every history. C82_commitments_unwritten: the verdict if nobody writes the commitments. C82_unwritten: equality with the methods of the other properties if nobody writes the arguments. C82_gap: the accepted batch whose second commitment never encodes a point. Rust gives such programs no meaning (a data race); the model takes each read in the source as a read at that moment, and assumes that the decoding functions of the curve library read each byte once."
  },
  {
   "property": "C83",
   "status": "proved",
   "theorems": [
    "Verif.C83_embedded_clients",
    "Verif.C83_embedded_published",
    "Verif.C83_collect",
    "Verif.C83_clients",
    "Verif.C83_columns",
    "Verif.C83_published",
    "Verif.C83_attained"
   ],
   "note": "C83_clients: the attacker who sees all requests. C83_columns: the bound in powers of two. C83_published: columns put up before the request. C83_attained: withholding 65 columns attains the first part of that bound (for the secret 7 over the toy group). C83_collect: the columns held can always be put together. The hash is a random table as in C61; breaking the setup is the fixed computation of C57 and C61."
  },
  {
   "property": "C84",
   "status": "proved",
   "theorems": [
    "Verif.C84_columns",
    "Verif.C84_agree",
    "Verif.C84_nodes",
    "Verif.C84_embedded_columns",
    "Verif.C84_embedded_nodes"
   ],
   "note": "C84_columns counts hash functions and requests as C83_clients does; the part for requests does not depend on the number of blobs. C84_agree is about two sets from which the blob behind one commitment was recovered; both of its cases occur (example with the known secret 7). C84_nodes is the counting form for c nodes."
  },
  {
   "property": "C85",
   "status": "proved",
   "theorems": [
    "Verif.Tests.C85_suite",
    "Verif.Tests.C85_rust_commitment",
    "Verif.Tests.C85_rust_compute_prefix",
    "Verif.Tests.C85_rust_compute",
    "Verif.Tests.C85_rust_recover_prefix",
    "Verif.Tests.C85_rust_recover",
    "Verif.Tests.C85_rust_verify",
    "Verif.Tests.C85_java_commitment",
    "Verif.Tests.C85_java_compute",
    "Verif.Tests.C85_java_recover",
    "Verif.Tests.C85_java_verify",
    "Verif.Tests.C85_csharp_commitment",
    "Verif.Tests.C85_csharp_compute",
    "Verif.Tests.C85_csharp_recover",
    "Verif.Tests.C85_csharp_verify",
    "Verif.Tests.C85_node_commitment",
    "Verif.Tests.C85_node_compute",
    "Verif.Tests.C85_node_recover",
    "Verif.Tests.C85_node_verify",
    "Verif.Tests.C85_nim_commitment",
    "Verif.Tests.C85_nim_compute",
    "Verif.Tests.C85_nim_recover",
    "Verif.Tests.C85_nim_verify",
    "Verif.Tests.C85_go",
    "Verif.Tests.C85_library_commitment",
    "Verif.Tests.C85_library_compute",
    "Verif.Tests.C85_library_recover",
    "Verif.Tests.C85_library_verify",
    "Verif.Tests.C85_languages_commitment",
    "Verif.Tests.C85_languages_compute",
    "Verif.Tests.C85_languages_recover",
    "Verif.Tests.C85_languages_verify",
    "Verif.Tests.C85_vectors",
    "Verif.Tests.C85_gap_commitment",
    "Verif.Tests.C85_gap_prefix",
    "Verif.Tests.C85_malformed_blob",
    "Verif.Tests.C85_malformed_output"
   ],
   "note": "The tests that the suites perform on a file are modelled line by line; YAML, file search and the test frameworks are not. C85_gap_commitment and C85_gap_prefix give wrong libraries that pass. C85_library_* and C85_languages_* combine the tests with C48-C51 and C72."
  },
  {
   "property": "C86",
   "status": "proved",
   "theorems": [
    "Verif.C86_embedded_true",
    "Verif.C86_embedded_single",
    "Verif.C86_embedded_culprit",
    "Verif.C86_embedded_exact",
    "Verif.C86_embedded_nodes",
    "Verif.C86_true",
    "Verif.C86_single",
    "Verif.C86_parts",
    "Verif.C86_malformed",
    "Verif.C86_culprit",
    "Verif.C86_exact",
    "Verif.C86_nodes",
    "Verif.C86_gap"
   ],
   "note": "Stated on bytes (Spec/Groupings). C86_exact and C86_nodes count hash functions as C61 does. C86_gap is the exception. C86_embedded_* (and C61_, C83_, C84_embedded_*) are for contexts from the embedded setup, given a secret and a pairing that is not trivial on the generators."
  },
  {
   "property": "C87",
   "status": "proved",
   "theorems": [
    "Verif.C87_complete",
    "Verif.C87_necessary",
    "Verif.C87_powers_consistent",
    "Verif.C87_ceremony",
    "Verif.C87_embedded",
    "Verif.C87_shape",
    "Verif.C87_gap"
   ],
   "note": "The prover is without precomputation, the verifier with any setting. C87_complete and C87_necessary are the two directions, C87_shape and C87_ceremony are on the modelled groups of BLS12-381 with a pairing that is not trivial on the generators, C87_gap is the setup that honest tests cannot tell from a good one."
  },
  {
   "property": "C88",
   "status": "proved",
   "theorems": [
    "Verif.C88_nothing_learned",
    "Verif.C88_secret",
    "Verif.C88_cell",
    "Verif.C88_blobs",
    "Verif.C88_available",
    "Verif.C88_tight",
    "Verif.C88_bls"
   ],
   "note": "The attacker (Spec/BlackBox) works on real points of the setup; hash queries are not part of it, since single claims are checked and their verdict does not depend on the hash (C86_single); for batches and hashes see C61. C88_tight shows that the bound of C88_cell is the best possible."
  },
  {
   "property": "C89",
   "status": "proved",
   "theorems": [
    "Verif.C89_constant",
    "Verif.C89_commitments",
    "Verif.C89_cells",
    "Verif.C89_proof",
    "Verif.C89_recover",
    "Verif.C89_refused",
    "Verif.C89_constant_verify",
    "Verif.C89_verify"
   ],
   "note": "C89_constant and C89_constant_verify are about all constant blobs and all setups, C89_refused about all setups. The other theorems are about a finite set of recorded files and are evidence that model and code agree; they are not bounded checks of a general claim, which the theorems C01, C02 and C09 prove for all inputs. Commitments and one proof are computed in the kernel by Jacobian sums over the 4096 points of the embedded setup and cells by packed polynomial evaluation; both methods are proved correct (Lemmas/JacMsm, Lemmas/PackedEval, Lemmas/VectorCheck). C89_verify assumes a bilinear pairing with pair(generator, generator2) nonzero and nothing about the secret of the setup. Not covered: 511 of the 512 proofs of the four blobs that are not constant, and the six verification files that contain such proofs. The transcription of the files into Model/TestVectors and Model/TestVectorsData is by a script; its output was compared with the files, and is trusted."
  },
  {
   "property": "C90",
   "status": "proved",
   "theorems": [
    "Verif.C90_commitment",
    "Verif.C90_cells",
    "Verif.C90_recover",
    "Verif.C90_verify",
    "Verif.C90_independent",
    "Verif.C90_mixed",
    "Verif.C90_precomp",
    "Verif.C90_unique"
   ],
   "note": "Specification in Spec/Linear: what it means that bytes hold a combination of field elements or of points. Cells, proofs and recovery: without precomputation outright, with precomputation (C90_precomp) whenever the runs do not panic. Verification is stated for single claims; batches follow with C86."
  },
  {
   "property": "C91",
   "status": "proved",
   "theorems": [
    "Verif.C91_poly_arithmetic",
    "Verif.C91_poly_points",
    "Verif.C91_root_of_unity",
    "Verif.C91_transforms",
    "Verif.C91_point_transform",
    "Verif.C91_lookup_table",
    "Verif.C91_footgun",
    "Verif.C91_scalar_mul",
    "Verif.C91_scalar_mul_wide",
    "Verif.C91_batch_inverse",
    "Verif.C91_reduce_bytes",
    "Verif.C91_blst_table",
    "Verif.C91_fixed_base",
    "Verif.C91_fixed_base_test",
    "Verif.C91_bench",
    "Verif.C91_batch_addition",
    "Verif.C91_cosets_equality",
    "Verif.C91_valid_cosets",
    "Verif.C91_data_first",
    "Verif.C91_data_spread",
    "Verif.C91_bit_reverse",
    "Verif.C91_powers",
    "Verif.C91_shift",
    "Verif.C91_dense_toeplitz",
    "Verif.C91_dense_product",
    "Verif.C91_circulant",
    "Verif.C91_data_shown",
    "Verif.C91_h_polys",
    "Verif.C91_fk20",
    "Verif.C91_references",
    "Verif.C91_data_in_cells",
    "Verif.C91_prove_verify",
    "Verif.C91_naive_opening",
    "Verif.C91_batch_toeplitz",
    "Verif.C91_batch_toeplitz_few",
    "Verif.C91_deduplicate",
    "Verif.C91_indices_unique",
    "Verif.C91_vanishing_panics",
    "Verif.C91_recovery_no_erasures",
    "Verif.C91_vanishing_blocks",
    "Verif.C91_vanishing_random",
    "Verif.C91_recovery_random",
    "Verif.C91_recovery_blocks"
   ],
   "note": "The test programs are in Model/UnitTests, with the constants of the repository in the examples. Random draws are parameters. smoke_test_downsample has fixed small data and is evaluated in the kernel. Not evaluated on the repository's values: the 4096 coefficients of the reference verifier's test and the width 8 of the batched Toeplitz test, for which the theorem asks that no base point is the identity and that the product does not panic (with few matrices it cannot)."
  },
  {
   "property": "C92",
   "status": "proved",
   "theorems": [
    "Verif.C92_java",
    "Verif.C92_go"
   ],
   "note": "The programs are in Model/BindingTests. The Go test drops its results, so passing means ending without panic or fault; the moment of the garbage collection is a parameter. Java object identity is not modelled: the references differ since each comes from its own new."
  },
  {
   "property": "C93",
   "status": "proved",
   "theorems": [
    "Verif.C93_cells",
    "Verif.C93_published",
    "Verif.C93_guess",
    "Verif.C93_embedded_cells",
    "Verif.C93_embedded_published",
    "Verif.C93_embedded_guess"
   ],
   "note": "Counting, not computational hardness: the theorems say how many blobs remain, for receivers of unbounded power. With 63 cells and the commitment frOrder^63 blobs remain. The setup must be powers of a secret that is no evaluation point (proved for the embedded file from C80) and the context one without the table, as in C01."
  },
  {
   "property": "C94",
   "status": "proved",
   "theorems": [
    "Verif.C94_erasure_decoding",
    "Verif.C94_erasure_word",
    "Verif.C94_polynomial",
    "Verif.C94_batch_inversion",
    "Verif.C94_fixed_base_msm",
    "Verif.C94_msm",
    "Verif.C94_fk20_panics",
    "Verif.C94_fk20_count",
    "Verif.C94_fk20_otherwise",
    "Verif.C94_fk20_zero",
    "Verif.C94_dummy_blob",
    "Verif.C94_init_context",
    "Verif.C94_compute_recover",
    "Verif.C94_few_secrets",
    "Verif.C94_verify"
   ],
   "note": "Two findings: the erasure benchmark always measures an error (C94_erasure_decoding), and the FK20 benchmarks panic for all but at most one polynomial in 400 (C94_fk20_count; the bound is the one proved, not the exact share; C94_fk20_zero shows a polynomial that does not panic). Criterion, timing and the labels are not modelled."
  },
  {
   "property": "C95",
   "status": "proved",
   "theorems": [
    "Verif.C95_altered",
    "Verif.C95_zero",
    "Verif.C95_around",
    "Verif.C95_one",
    "Verif.C95_first",
    "Verif.C95_burst",
    "Verif.C95_alteration",
    "Verif.C95_sharp",
    "Verif.C95_embedded"
   ],
   "note": "An altered index is not covered: cells of a constant polynomial are the same at every index, so a changed index can leave a true claim. C95_altered and C95_alteration need a secret outside the coset of the claim; C95_embedded shows that the embedded setup needs no such hypothesis."
  },
  {
   "property": "C96",
   "status": "proved",
   "theorems": [
    "Verif.C96_elements",
    "Verif.C96_cells",
    "Verif.C96_limit",
    "Verif.C96_limit_cells",
    "Verif.C96_locate",
    "Verif.C96_contents",
    "Verif.C96_count"
   ],
   "note": "Which cells arrived is a list of different indices, and what arrived as cell k is a function of k; this covers all well-formed calls. C96_limit, C96_locate and C96_count are for contexts without precomputation (with it recovery returns the same or panics, C25)."
  },
  {
   "property": "C97",
   "status": "proved",
   "theorems": [
    "Verif.C97_fibre",
    "Verif.C97_zero",
    "Verif.C97_distance",
    "Verif.C97_guess",
    "Verif.C97_attained"
   ],
   "note": "Digests are all 2^256 strings of 32 bytes; that SHA-256 behaves like a random function is not claimed. C97_distance refutes a reading of the comment in verifier.rs as closeness to a uniform scalar, C97_guess proves the reading that the security argument needs."
  },
  {
   "property": "C98",
   "status": "proved",
   "theorems": [
    "Verif.C98_few",
    "Verif.C98_first",
    "Verif.C98_all_cells",
    "Verif.C98_one",
    "Verif.C98_sharp",
    "Verif.C98_extension",
    "Verif.C98_commitment",
    "Verif.C98_same_commitment",
    "Verif.C98_one_commitment",
    "Verif.C98_proofs",
    "Verif.C98_embedded"
   ],
   "note": "C98_sharp and C98_proofs are for contexts without precomputation (with it the prover returns the same or panics, C25); the others hold for every context whenever the call returns a result."
  },
  {
   "property": "C99",
   "status": "proved",
   "theorems": [
    "Verif.C99_points",
    "Verif.C99_repeated",
    "Verif.C99_new",
    "Verif.C99_decides",
    "Verif.C99_any_values",
    "Verif.C99_short_key",
    "Verif.C99_not_a_power",
    "Verif.C99_uneven",
    "Verif.C99_complete",
    "Verif.C99_sound",
    "Verif.C99_prover"
   ],
   "note": "Sizes are powers of two with e at most 32 and k, s below 32, except C99_not_a_power. C99_prover is for the prover without precomputation and a key of exactly the bound's length (C31)."
  },
  {
   "property": "C100",
   "status": "proved",
   "theorems": [
    "Verif.C100_short_wrong",
    "Verif.C100_padded",
    "Verif.C100_panics",
    "Verif.C100_rejected",
    "Verif.C100_recovery"
   ],
   "note": "Provers without precomputation. C100_padded needs a key of exactly the length of the bound (longer keys are C31). C100_panics is for every value of the prover type."
  },
  {
   "property": "C101",
   "status": "proved",
   "theorems": [
    "Verif.C101_spread",
    "Verif.C101_thinned",
    "Verif.C101_right",
    "Verif.C101_same",
    "Verif.C101_panics"
   ],
   "note": "Provers without precomputation. C101_right needs a key of exactly the length of the bound; C101_same holds for every key the constructor takes."
  }
 ]
}