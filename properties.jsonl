{"id": "C01", "title": "The first half of the cells is the blob itself", "statement": "For every blob accepted by compute_cells_and_kzg_proofs, concatenating the bytes of cells 0..63 yields exactly the 131072 bytes of the blob, so a reader holding the first 64 cells holds the data.", "quantifier": "all 131072-byte blobs whose 4096 field elements are canonical, all contexts", "why_tests_cant": "There are about 2^1044480 blobs; the claim combines inverse FFT, zero extension, FFT, two bit-reversal permutations and big-endian codecs, and a test only samples blobs.", "anchors": ["eip7594/src/prover.rs: compute_cells_and_kzg_proofs", "eip7594/src/serialization.rs: deserialize_blob_to_scalars, coset_evaluations_to_cells", "cryptography/kzg_multi_open/src/fk20/prover.rs: compute_coset_evaluations", "cryptography/polynomial/src/domain.rs"]}
{"id": "C02", "title": "Cells are the evaluations of the blob polynomial on the right cosets", "statement": "For every accepted blob let f be the unique polynomial of degree < 4096 with f(w4096^brev12(i)) = blob element i. Then byte block j of cell k is the canonical 32-byte big-endian encoding of f(w8192^brev13(64k+j)), for all k < 128 and j < 64. There are exactly 128 cells of 2048 bytes.", "quantifier": "all accepted blobs, all cell indices, all positions in a cell", "why_tests_cant": "It is an identity between an in-place FFT pipeline and polynomial evaluation over a 255-bit field for every coefficient vector.", "anchors": ["eip7594/src/prover.rs: compute_cells_and_kzg_proofs", "cryptography/kzg_multi_open/src/fk20/prover.rs: compute_coset_evaluations", "cryptography/kzg_multi_open/src/fk20/cosets.rs: reverse_bit_order", "cryptography/polynomial/src/fft.rs: fft_inplace"]}
{"id": "C03", "title": "The commitment is the blob polynomial evaluated at the setup secret", "statement": "With a setup whose G1 monomial points are tau^i * G, blob_to_kzg_commitment returns the compressed encoding of f(tau) * G where f is the blob polynomial of C02.", "quantifier": "all accepted blobs, all secrets tau, all generators G", "why_tests_cant": "Quantifies over all blobs and all (unknown) secrets; tests only use one setup whose secret is unknown.", "anchors": ["eip7594/src/prover.rs: blob_to_kzg_commitment", "cryptography/kzg_multi_open/src/fk20/prover.rs: commit", "cryptography/kzg_multi_open/src/commit_key.rs: commit_g1", "cryptography/bls12_381/src/lincomb.rs: g1_lincomb"]}
{"id": "C04", "title": "Every returned proof commits to the quotient polynomial", "statement": "With a powers-of-tau setup, proof k returned by compute_cells_and_kzg_proofs is the compressed encoding of q_k(tau) * G where q_k is the quotient of the blob polynomial f by X^64 - h_k^64 and h_k = w8192^brev7(k)-coset generator of cell k; equivalently (f - I_k)/(X^64 - h_k^64) with I_k interpolating cell k.", "quantifier": "all accepted blobs, all cell indices, all secrets", "why_tests_cant": "FK20 computes all 128 proofs by Toeplitz/circulant products and group FFTs; equality with 128 polynomial divisions for every polynomial is an algebraic theorem.", "anchors": ["cryptography/kzg_multi_open/src/fk20/prover.rs: compute_multi_opening_proofs, FK20Prover::new", "cryptography/kzg_multi_open/src/fk20/h_poly.rs", "cryptography/kzg_multi_open/src/fk20/toeplitz.rs", "cryptography/kzg_multi_open/src/fk20/batch_toeplitz.rs"]}
{"id": "C05", "title": "Honest cells and proofs always verify", "statement": "Take any number of blobs. Build any batch (any order, repetitions and subsets allowed) of tuples (commitment, cell index, cell, proof) returned by blob_to_kzg_commitment and compute_cells_and_kzg_proofs. verify_cell_kzg_proof_batch on it returns Ok, whatever value the Fiat-Shamir hash yields.", "quantifier": "all batches of any length over any blobs, all hash functions, all secrets", "why_tests_cant": "Completeness must hold for every batch composition and every challenge; a single unlucky combination would reject honest data.", "anchors": ["eip7594/src/verifier.rs: verify_cell_kzg_proof_batch", "cryptography/kzg_multi_open/src/fk20/verifier.rs: verify_multi_opening", "eip7594/src/prover.rs"]}
{"id": "C06", "title": "Acceptance of a batch means exactly the random linear combination of the individual KZG equations", "statement": "For inputs that pass validation and decoding, verify_cell_kzg_proof_batch returns Ok iff sum_i r^i * D_i = 0, where D_i = (tau^64 - h_i^64)*proof_i - commitment_i + [I_i(tau)] is the defect of the i-th single-cell equation and r is the challenge. For a batch of one cell this is the exact single-cell KZG pairing equation, for every challenge.", "quantifier": "all well-formed batches, all challenges, all setups of the powers-of-tau form, any non-degenerate bilinear pairing", "why_tests_cant": "Soundness of the aggregation is an algebraic identity over all inputs, in particular the adversarial ones that no test suite enumerates.", "anchors": ["cryptography/kzg_multi_open/src/fk20/verifier.rs: verify_multi_opening, compute_sum_interpolation_poly", "eip7594/src/verifier.rs"]}
{"id": "C07", "title": "A false item survives batching only for few challenges", "statement": "If at least one item of an n-item batch violates its own KZG equation then at most n-1 of the r possible challenge values make the aggregated check accept.", "quantifier": "all batches of n items with at least one false item", "why_tests_cant": "A counting claim over the whole 255-bit challenge space.", "anchors": ["cryptography/kzg_multi_open/src/fk20/verifier.rs: verify_multi_opening"]}
{"id": "C08", "title": "A wrong cell can only be accepted for few secrets", "statement": "If the commitment and proof are known combinations of the setup (commitment = [f(tau)], proof = [q(tau)]) and the claimed cell differs from the evaluations of f on the coset, then the single-cell equation holds for at most max(deg f, deg q + 64, 63) values of the secret tau. A valid proof for given commitment, index and cell is unique unless tau^64 = h^64.", "quantifier": "all polynomials f, q, all wrong cells, all indices", "why_tests_cant": "Counts over all secrets; depends on the verifier using the right vanishing polynomial and coset shift for each index.", "anchors": ["cryptography/kzg_multi_open/src/fk20/verifier.rs: verify_multi_opening, FK20Verifier::new", "cryptography/kzg_multi_open/src/fk20/cosets.rs: coset_gens"]}
{"id": "C09", "title": "Recovery from any half of the cells returns the original cells and proofs", "statement": "For every accepted blob and every list of at least 64 distinct cell indices below 128, in any order, passing these indices with the corresponding cells to recover_cells_and_kzg_proofs returns Ok with exactly the cells and proofs returned by compute_cells_and_kzg_proofs for that blob.", "quantifier": "all accepted blobs, all index subsets of size 64..128, all orders", "why_tests_cant": "There are about 2^126 subsets times factorially many orders times all blobs.", "anchors": ["eip7594/src/recovery.rs", "eip7594/src/prover.rs: recover_cells_and_kzg_proofs", "cryptography/erasure_codes/src/reed_solomon.rs", "cryptography/kzg_multi_open/src/fk20/cosets.rs: recover_evaluations_in_domain_order"]}
{"id": "C10", "title": "Recovery succeeds exactly on consistent cells and never alters them", "statement": "For decodable inputs passing validation, recover_cells_and_kzg_proofs returns Ok iff some polynomial of degree < 4096 agrees with every supplied cell; then the output cell at each supplied index equals the supplied cell and all output cells are the evaluations of that polynomial. Otherwise it returns the Reed-Solomon error PolynomialHasInvalidLength. With exactly 64 cells it always succeeds.", "quantifier": "all decodable inputs with 64..128 distinct indices, adversarial cells included", "why_tests_cant": "Detecting every inconsistent input is a statement about all corrupted codewords.", "anchors": ["cryptography/erasure_codes/src/reed_solomon.rs: recover_polynomial_coefficient", "eip7594/src/recovery.rs: recover_polynomial_coeff"]}
{"id": "C11", "title": "Recovery does not depend on the order of the supplied cells", "statement": "Permuting the (index, cell) pairs passed to recover_cells_and_kzg_proofs does not change a successful result, and an input is accepted iff each of its permutations is.", "quantifier": "all inputs, all permutations", "why_tests_cant": "n! orders per input.", "anchors": ["eip7594/src/recovery.rs", "cryptography/kzg_multi_open/src/fk20/cosets.rs: recover_evaluations_in_domain_order"]}
{"id": "C12", "title": "Recovery input validation is exact, with a fixed precedence", "statement": "recover_cells_and_kzg_proofs reports, in this order: unequal numbers of indices and cells; the first index >= 128; non-unique indices; fewer than 64 cells; otherwise the first cell with a non-canonical field element as a serialization error. Inputs with none of these defects pass validation. More than 128 cells can never be reported as such because it is shadowed by the uniqueness check.", "quantifier": "all index lists and cell lists", "why_tests_cant": "Covers all lengths and all combinations of defects.", "anchors": ["eip7594/src/recovery.rs: validate_recovery_inputs", "eip7594/src/errors.rs"]}
{"id": "C13", "title": "Verification input validation is exact, with a fixed precedence", "statement": "verify_cell_kzg_proof_batch reports unequal list lengths first, then the first cell index >= 128, then accepts the empty batch, then reports the first undecodable commitment, then the first undecodable proof, then the first undecodable cell, and only then checks the pairing. The internally computed commitment index range check can never fail.", "quantifier": "all lists of commitments, indices, cells, proofs of any lengths", "why_tests_cant": "Covers all lengths and all combinations of defects.", "anchors": ["eip7594/src/verifier.rs: validation::verify_cell_kzg_proof_batch", "eip7594/src/errors.rs"]}
{"id": "C14", "title": "invalid_proof() separates a false proof from malformed input", "statement": "If verify_cell_kzg_proof_batch returns an error e then e.invalid_proof() is true iff all inputs are well-formed and decodable and the pairing equation fails. No other entry point ever returns an error for which invalid_proof() is true.", "quantifier": "all inputs of all four entry points", "why_tests_cant": "Callers (and all bindings) turn this flag into 'false' rather than an exception; the claim ranges over all error paths.", "anchors": ["eip7594/src/errors.rs: Error::invalid_proof", "eip7594/src/verifier.rs"]}
{"id": "C15", "title": "Commitment deduplication does not change what is verified", "statement": "For every list of commitments the deduplicated list has no repetitions, keeps first-occurrence order, and indexing it with the produced indices gives back the original list; hence the verification equation equals the one using the original list.", "quantifier": "all lists of commitments", "why_tests_cant": "All repetition patterns of all lengths.", "anchors": ["eip7594/src/verifier.rs: deduplicate_with_indices", "cryptography/kzg_multi_open/src/fk20/verifier.rs"]}
{"id": "C16", "title": "The Fiat-Shamir transcript binds every input", "statement": "For a fixed verification key, two verification statements (deduplicated commitments, commitment indices, cell indices, cells, proofs) that produce the same hash input are equal; the hash input always has the precomputed length so the internal length assertion never fails.", "quantifier": "all pairs of well-formed statements of any sizes below 2^64", "why_tests_cant": "Injectivity is a claim about all pairs of inputs.", "anchors": ["cryptography/kzg_multi_open/src/fk20/verifier.rs: compute_fiat_shamir_challenge"]}
{"id": "C17", "title": "Field element decoding is canonical", "statement": "A 32-byte string decodes to a scalar iff its big-endian value is below r; encoding then returns the same bytes and decoding an encoded scalar returns the scalar. Consequently every blob or cell with a field element >= r is rejected with a serialization error by every entry point, and no two different accepted blobs or cells denote the same field elements.", "quantifier": "all byte strings, all scalars", "why_tests_cant": "2^256 strings; malleability shows only at values in [r, 2^256).", "anchors": ["eip7594/src/serialization.rs: deserialize_bytes_to_scalars, serialize_scalars_to_cell"]}
{"id": "C18", "title": "No input makes the four entry points panic", "statement": "With a context built from a full-length setup without precomputation, none of blob_to_kzg_commitment, compute_cells_and_kzg_proofs, verify_cell_kzg_proof_batch and recover_cells_and_kzg_proofs panics, for any argument values of the declared types.", "quantifier": "all arguments of the declared types", "why_tests_cant": "Every assert, unwrap, expect, index, slice and division in the call trees must be unreachable.", "anchors": ["eip7594/src/prover.rs", "eip7594/src/verifier.rs", "eip7594/src/recovery.rs"]}
{"id": "C19", "title": "The FFT is the DFT for every domain size", "statement": "For every power-of-two domain up to 2^32 and every input not longer than the domain, the forward transform returns the evaluations at all domain points in natural order of the polynomial with these coefficients (group elements: the same linear combination); shorter inputs are zero-extended and longer inputs are truncated. Domains are rounded up to the least power of two not below the requested size, sizes above 2^32 panic. The inverse transform returns the only polynomial of degree below the domain size with the given values; the coset transforms do the same on the coset. ifft_g1_take_n returns a proper prefix of the inverse transform and panics if asked for all or more.", "quantifier": "all sizes, all inputs, scalars and group elements", "why_tests_cant": "An in-place bit-reversed butterfly network with special-cased twiddles, for all sizes.", "anchors": ["cryptography/polynomial/src/fft.rs: fft_inplace", "cryptography/polynomial/src/domain.rs: fft_scalars, fft_g1"]}
{"id": "C20", "title": "Forward and inverse transforms are inverse to each other, also on cosets", "statement": "On every domain ifft(fft(x)) = x = fft(ifft(x)) for vectors of the domain size, and the same for the coset transforms with any non-zero coset generator and for group elements.", "quantifier": "all sizes, all vectors, all non-zero coset generators", "why_tests_cant": "All vectors of all sizes.", "anchors": ["cryptography/polynomial/src/domain.rs: ifft_scalars, coset_fft_scalars, coset_ifft_scalars, ifft_g1", "cryptography/polynomial/src/coset_fft.rs"]}
{"id": "C21", "title": "Reed-Solomon decoding is exact for every code size and erasure pattern", "statement": "For every code with power-of-two parameters and every set of at most the advertised number of erased blocks, decoding a codeword with arbitrary values in the erased positions returns the encoded message; decoding a word that no message encodes outside of the erased blocks returns an error; bad block indices and too many erasures return the matching error. The decoder for erasures in arbitrary places, which the tests use, has the same properties up to as many erasures as there are redundant symbols, and agrees with the former on erased blocks. The decoder does not look at the length of the word: further symbols are ignored, and missing ones count as zero, not as erased; so the empty word decodes to the zero message.", "quantifier": "all code parameters, all messages, all erasure sets, all received words", "why_tests_cant": "Exponentially many erasure patterns and all received words.", "anchors": ["cryptography/erasure_codes/src/reed_solomon.rs"]}
{"id": "C22", "title": "Signed window recoding reconstructs every scalar", "statement": "For every window width from 1 to 24 and every 32-byte little-endian scalar below 2^255 the sum of digit_i * 2^(w*i) over the 255/w + 1 windows is the scalar, and each digit has absolute value at most 2^(w-1), so table look-ups are in range.", "quantifier": "all scalars, all widths 1..24", "why_tests_cant": "2^255 scalars.", "anchors": ["cryptography/bls12_381/src/booth_encoding.rs: get_booth_index", "cryptography/bls12_381/src/fixed_base_msm_window.rs"]}
{"id": "C23", "title": "Batch addition returns the exact sums or panics, never a wrong point", "statement": "For lists of non-identity curve points, the batched affine addition returns the sum of each list, unless at some level of its pairing tree two neighbours are opposite points, in which case it panics. (With identity points among the inputs this is false: see the counterexample theorem.)", "quantifier": "all lists of lists of curve points on any curve y^2 = x^3 + b", "why_tests_cant": "Degenerate pairs occur with probability about 2^-250 in random tests.", "anchors": ["cryptography/bls12_381/src/batch_addition.rs", "cryptography/bls12_381/src/batch_inversion.rs"]}
{"id": "C24", "title": "Fixed-base multi-scalar multiplication equals the plain sum", "statement": "For every list of generators and scalars, the fixed-base MSM with and without precomputation returns sum s_i * P_i. With precomputation this needs non-identity generators and no opposite neighbours in the pairing trees; otherwise it may panic.", "quantifier": "all generators, all scalars, all widths 1..24", "why_tests_cant": "All scalars and generators; the failing cases have negligible random probability.", "anchors": ["cryptography/bls12_381/src/fixed_base_msm.rs", "cryptography/bls12_381/src/fixed_base_msm_window.rs", "cryptography/bls12_381/src/lincomb.rs"]}
{"id": "C25", "title": "Precomputation does not change results", "statement": "A context built with UsePrecomp::Yes and one built with UsePrecomp::No return the same values for every call on which the former does not hit a degenerate addition; the commitment, verification, and all error results are identical unconditionally.", "quantifier": "all inputs, all widths 1..24", "why_tests_cant": "Same degenerate cases as in C24 and all blobs.", "anchors": ["eip7594/src/lib.rs: DASContext::new", "eip7594/src/prover.rs", "cryptography/bls12_381/src/fixed_base_msm.rs"]}
{"id": "C26", "title": "Linear combination tolerates identity points", "statement": "g1_lincomb of equally long lists of points and scalars returns Some of the exact sum, also when some or all points are the identity. (The documented None on unequal lengths is never returned: the longer list is truncated.)", "quantifier": "all point and scalar lists", "why_tests_cant": "All positions of identity points and all lengths.", "anchors": ["cryptography/bls12_381/src/lincomb.rs: g1_lincomb"]}
{"id": "C27", "title": "Batch inversion inverts every entry or panics", "statement": "batch_inverse on a list without zeros replaces every element by its inverse in place; on a list containing a zero it panics; the empty list is left unchanged.", "quantifier": "all lists over any field", "why_tests_cant": "All lengths and positions of zeros.", "anchors": ["cryptography/bls12_381/src/batch_inversion.rs: batch_inverse"]}
{"id": "C28", "title": "Bit reversal, its length check and coset generators match their index maps", "statement": "For every power-of-two length below 2^32, reverse_bit_order moves the element at index i to the index with reversed bits, and applying it twice restores the input; for other lengths below 2^32 it panics. Longer lists are cut to 32 bits of length: only the leading part moves, or the call panics. log2 returns the exponent of a power of two and panics on every other u32. coset_gens lists the powers of the domain generator in natural or bit-reversed order, and panics in bit-reversed order exactly when the number of cosets is positive and not a power of two.", "quantifier": "all lists, all u32 words, all domain sizes and numbers of cosets below 2^32", "why_tests_cant": "All lengths and contents.", "anchors": ["cryptography/kzg_multi_open/src/fk20/cosets.rs: reverse_bit_order, reverse_bits, log2, coset_gens"]}
{"id": "C29", "title": "Circulant embedding computes the Toeplitz product", "statement": "The FFT-based sum of Toeplitz matrix-vector products returns exactly the sum over the matrices of the ordinary matrix-vector products, for every batch size. The constructor succeeds exactly if there is at least one vector and all have one power-of-two length that is at most 2^31; otherwise it panics. The number of the matrices is checked, their sizes are not: a matrix of any size is taken for the circulant whose column is the matrix's column, its first row entry and the rest of its row reversed, cut or padded with zeros to twice the length of the vectors.", "quantifier": "all Toeplitz matrices of power-of-two size, all vectors of group elements; for the constructor all lists of vectors, for matrices of other sizes all rows and columns", "why_tests_cant": "Identity over all matrices and vectors.", "anchors": ["cryptography/kzg_multi_open/src/fk20/toeplitz.rs: CirculantMatrix::from_toeplitz", "cryptography/kzg_multi_open/src/fk20/batch_toeplitz.rs: sum_matrix_vector_mul"]}
{"id": "C30", "title": "Polynomial helper functions compute what they are named after", "statement": "poly_add, poly_sub, poly_neg, poly_mul, poly_eval and vanishing_poly on coefficient lists agree with polynomial arithmetic; poly_mul panics exactly when both lists are empty. lagrange_interpolate returns, for at least two points with distinct abscissas, the coefficients of the unique interpolating polynomial of smaller degree, and panics on fewer points or on a repeated abscissa.", "quantifier": "all coefficient lists, all point lists", "why_tests_cant": "All lengths and values.", "anchors": ["cryptography/polynomial/src/poly_coeff.rs"]}
{"id": "C31", "title": "The prover requires the setup length to match the polynomial bound", "statement": "FK20 proofs are correct when the commit key has exactly polynomial_bound points. The constructor also accepts longer keys, and then the returned proofs are wrong: constructor acceptance does not imply correct proofs.", "quantifier": "all commit key lengths accepted by the constructor", "why_tests_cant": "Shipped setups have exactly 4096 points so no test exercises longer keys.", "anchors": ["cryptography/kzg_multi_open/src/fk20/prover.rs: FK20Prover::new"]}
{"id": "C32", "title": "C API: outputs are written only on success and nothing else is touched", "statement": "Each of the four C entry points returns status Ok iff the Rust call succeeded (for verification: also when the proof is invalid, with *verified = false). On status Err no caller memory is modified. On Ok exactly the documented output bytes are modified and hold the result.", "quantifier": "all caller memories, all pointer arguments with valid and non-overlapping regions, all inputs", "why_tests_cant": "Quantifies over all memory contents and all error paths.", "anchors": ["bindings/c/src/blob_to_kzg_commitment.rs", "bindings/c/src/compute_cells_and_kzg_proofs.rs", "bindings/c/src/verify_cells_and_kzg_proofs_batch.rs", "bindings/c/src/recover_cells_and_kzg_proofs.rs", "bindings/c/src/lib.rs"]}
{"id": "C33", "title": "Integer conversions in the bindings do not alias cell indices", "statement": "Every cell index that a Java caller can pass is either used unchanged or rejected. For Node this is false: a BigInt 2^64 + k is used as index k; it holds for BigInts below 2^64.", "quantifier": "all Java longs, all BigInts", "why_tests_cant": "Values beyond 2^64 never appear in test vectors.", "anchors": ["bindings/java/rust_code/src/lib.rs", "bindings/node/src/lib.rs: bigint_to_u64"]}
{"id": "C34", "title": "Bindings reject wrongly sized inputs before calling the library", "statement": "The Java, Node and C# wrappers call the library only with arrays of the exact sizes; any blob, cell, commitment or proof of another size gives an exception that names the first offending kind.", "quantifier": "all byte array arguments", "why_tests_cant": "All combinations of wrong lengths.", "anchors": ["bindings/java/rust_code/src/lib.rs", "bindings/node/src/lib.rs", "bindings/csharp/csharp_code/EthKZG.bindings/ethkzg.cs"]}
{"id": "C35", "title": "The Go wrapper does not hide errors", "statement": "A Go caller of BlobToKZGCommitment who gets a nil error holds the commitment of the blob. (False: the C status is ignored, so a non-canonical blob yields 48 zero bytes and a nil error.)", "quantifier": "all blobs", "why_tests_cant": "Holds on all valid blobs, fails on exactly the blobs with a non-canonical element.", "anchors": ["bindings/golang/prover.go: BlobToKZGCommitment"]}
{"id": "C36", "title": "Parallel execution does not change results", "statement": "Whatever order and interleaving the thread pool uses to execute the independent tasks of a parallel map or zip, the collected result equals the sequential one; hence results do not depend on the thread count.", "quantifier": "all schedules of all task sets", "why_tests_cant": "Number of interleavings is factorial in the number of tasks.", "anchors": ["maybe_rayon/src/lib.rs", "eip7594/src/macros.rs", "eip7594/src/lib.rs: ThreadCount"]}
{"id": "C37", "title": "The scalar field constants are what the algorithms need", "statement": "The modulus r is prime, the 2^32-th root of unity used by the domains is primitive, the domain generator for size 2^k has order exactly 2^k, and the coset generator 7 satisfies 7^8192 != 1, so coset evaluations of the erasure polynomial are never zero.", "quantifier": "all domain sizes 2^k, k <= 32, all elements", "why_tests_cant": "Primality and orders of 255-bit numbers are not testable by sampling.", "anchors": ["cryptography/polynomial/src/domain.rs: Domain::new, compute_generator_for_size", "cryptography/erasure_codes/src/reed_solomon.rs: ReedSolomon::new"]}
{"id": "C38", "title": "Trusted setup loading accepts exactly well-formed hex of the right length", "statement": "Loading a setup point succeeds iff its text is 0x followed by an even number of hex digits giving exactly 48 (G1) or 96 (G2) bytes that decode to a point (in the subgroup when checks are requested); otherwise it panics. Lagrange points are never inspected.", "quantifier": "all setup texts", "why_tests_cant": "All strings.", "anchors": ["eip7594/src/trusted_setup.rs"]}
{"id": "C39", "title": "Domain-order reassembly places every element at its evaluation point", "statement": "Given distinct cell indices and equally long cells, the reassembled vector holds cell element j of cell k at position brev13(64k+j) and zero elsewhere, and the erased block indices handed to the decoder are exactly the bit-reversed missing cell indices. On other inputs: lists of different lengths and empty cosets panic; no cosets, cosets of different lengths and an index without room give None; otherwise, for domains below 2^32 elements, there is a result exactly if the size of the domain and the number of cosets that fit are powers of two (the coset length need not divide the size), and a panic if not. Of several cosets with the same index the last one counts.", "quantifier": "all index lists, cells, domain sizes and coset lengths", "why_tests_cant": "All subsets and orders.", "anchors": ["cryptography/kzg_multi_open/src/fk20/cosets.rs: recover_evaluations_in_domain_order", "eip7594/src/recovery.rs: find_missing_cell_indices"]}
{"id": "C40", "title": "Different blobs never share all cells; codeword distance", "statement": "Two different accepted blobs agree on fewer than 64 of their 128 cells, so any 64 correct cells identify the blob.", "quantifier": "all pairs of accepted blobs", "why_tests_cant": "All pairs of blobs.", "anchors": ["eip7594/src/prover.rs: compute_cells_and_kzg_proofs"]}
{"id": "C41", "title": "C# results do not depend on garbage collection", "statement": "ComputeCellsAndKZGProofs, RecoverCellsAndKZGProofs and VerifyCellKZGProofBatch in C# give the library's answer for the arguments of the caller whenever the garbage collector runs, as long as it keeps the contents of all live arrays. (False: the arrays are pinned only while their addresses are taken. A collection before or during the native call leaves the caller of the first two with arrays of zeros and no exception, and makes the third judge whatever lies at the old addresses, so that it can return true for a batch that the library rejects.)", "quantifier": "all arguments, all content-preserving collections", "why_tests_cant": "A collection rarely happens between taking the addresses and the native call; tests see the good case.", "anchors": ["bindings/csharp/csharp_code/EthKZG.bindings/ethkzg.cs: ComputeCellsAndKZGProofs, VerifyCellKZGProofBatch, RecoverCellsAndKZGProofs"]}
{"id": "C42", "title": "The Nim wrapper returns the library's results", "statement": "Each procedure of the Nim bindings called with a live context and readable arguments returns exactly the value the library computes, fails exactly when the library fails, changes no memory that was mapped before, and leaves no error message allocated; the only other outcome is a failed allocation.", "quantifier": "all contexts, all inputs, all allocators, all process states", "why_tests_cant": "All inputs and all placements of the sequences of pointers and of the output buffers.", "anchors": ["bindings/nim/nim_code/nim_eth_kzg/nim_eth_kzg.nim"]}
{"id": "C43", "title": "Nim errors tell the caller the reason", "statement": "Two Nim calls that fail for different reasons return different error texts. (False: the text is made from the status and the address of the message, which is then freed; its contents are never read, so the reason is lost.)", "quantifier": "all contexts, all ways to render a status and an address", "why_tests_cant": "The Nim tests only check that an error is returned; the text differs between runs because addresses do.", "anchors": ["bindings/nim/nim_code/nim_eth_kzg/nim_eth_kzg.nim: verify_result", "bindings/nim/nim_code/nim_eth_kzg/header.nim: CResult"]}
{"id": "C44", "title": "An error text identifies the error", "statement": "The text that the bindings show for an error (its Debug text) is exactly the one described by the declarations of the error enums (names of variants and fields, decimal numbers, byte lists), is different for any two different errors, including the numbers and bytes they carry, is not empty and consists of printable ASCII characters only, so it can be passed as a C string without being cut.", "quantifier": "all pairs of errors", "why_tests_cant": "Error values carry arbitrary byte strings and numbers; tests print a handful.", "anchors": ["eip7594/src/errors.rs", "bindings/c/src/pointer_utils.rs", "bindings/c/src/lib.rs: CResult::with_error"]}
{"id": "C45", "title": "Contexts are created and freed exactly once", "statement": "In every C program that frees only contexts it created and did not free yet, the live contexts are exactly those, each unchanged by any call of the library; freeing one works and frees nothing else, freeing null does nothing, and using or freeing anything else is caught as undefined behaviour. A Java object frees its context exactly once, whatever methods are called in one thread, and refuses every method after destroy. A C# object can be disposed twice; its methods used after Dispose end the process. A Nim object keeps its context as long as there is a reference to it and frees it exactly once when the last reference is dropped.", "quantifier": "all sequences of calls, all arguments, all allocators", "why_tests_cant": "All sequences of calls of any length; use after free is not observable in a test.", "anchors": ["bindings/c/src/lib.rs: eth_kzg_das_context_new, eth_kzg_das_context_free", "bindings/java/java_code/src/main/java/ethereum/cryptography/LibEthKZG.java: destroy, checkContextHasNotBeenFreed", "bindings/csharp/csharp_code/EthKZG.bindings/ethkzg.cs: Dispose", "bindings/nim/nim_code/nim_eth_kzg/nim_eth_kzg.nim: newKZGCtx, =destroy"]}
{"id": "C46", "title": "A Java object can be used by several threads", "statement": "No interleaving of threads that call methods of one Java object, destroy among them, has undefined behaviour. (False: the field is tested and read without a lock, so destroy can free the context that another thread is about to use or is using, and two threads can free it twice. True if no thread calls destroy.)", "quantifier": "all numbers of threads, all interleavings", "why_tests_cant": "All interleavings; the race needs a switch between two instructions.", "anchors": ["bindings/java/java_code/src/main/java/ethereum/cryptography/LibEthKZG.java: destroy, checkContextHasNotBeenFreed"]}
{"id": "C47", "title": "The Go context lives as long as a call needs it", "statement": "A garbage collection during BlobToKZGCommitment does not free the context that the C function uses. (False: the object is not kept alive during the call, so its finalizer may run before the C function starts if the caller does not use the object afterwards.)", "quantifier": "all contexts, all blobs, collection between the evaluation of the argument and the call", "why_tests_cant": "The collection has to happen in a window of a few instructions.", "anchors": ["bindings/golang/prover.go: NewProverContext, BlobToKZGCommitment"]}
{"id": "C48", "title": "Commitments are those of the consensus specification", "statement": "For every blob, blob_to_kzg_commitment returns what the Python function of the consensus specification returns, and an error exactly where an assertion of it fails. The library commits to the coefficients with the powers of tau, the specification to the values with the Lagrange form of the setup.", "quantifier": "all blobs, all secrets, all contexts with and without precomputation", "why_tests_cant": "The specification is run on a few fixed vectors.", "anchors": ["eip7594/src/prover.rs: blob_to_kzg_commitment (names the specification at line 76)"]}
{"id": "C49", "title": "Cells and proofs are those of the consensus specification", "statement": "For every blob, compute_cells_and_kzg_proofs (FK20) returns the cells and proofs that compute_cells_and_kzg_proofs of the consensus specification returns (evaluation by Horner's rule, long division by the vanishing polynomial of each coset, one linear combination per proof), and an error exactly where an assertion fails. With precomputation the call may panic (C25) but never returns anything else.", "quantifier": "all blobs, all setups of 4096 points", "why_tests_cant": "The two algorithms have nothing in common; vectors cover a handful of blobs.", "anchors": ["eip7594/src/prover.rs: compute_cells_and_kzg_proofs (names the specification at line 95)", "cryptography/kzg_multi_open/src/fk20/prover.rs"]}
{"id": "C50", "title": "Verification decides as the consensus specification", "statement": "verify_cell_kzg_proof_batch returns success exactly where the function of the consensus specification returns true, InvalidProof exactly where it returns false, and another error exactly where one of its assertions fails (interpolation by Lagrange polynomials, weights, challenge and pairing check included).", "quantifier": "all batches, all hash functions, all setups of the right size", "why_tests_cant": "All batches; disagreement on one would split the network.", "anchors": ["eip7594/src/verifier.rs: verify_cell_kzg_proof_batch (names the specification at line 74)", "cryptography/kzg_multi_open/src/fk20/verifier.rs"]}
{"id": "C51", "title": "Recovery against the consensus specification", "statement": "recover_cells_and_kzg_proofs returns what the consensus specification returns, and an error exactly where one of its assertions fails, for every input except well-formed cells that belong to no blob. On those the library returns an error and the specification returns the cells and proofs of another blob, at least one supplied cell of which differs from the supplied one. With exactly 64 cells there is no exception.", "quantifier": "all lists of indices and cells", "why_tests_cant": "All inputs; test vectors contain hardly any inconsistent cells.", "anchors": ["eip7594/src/prover.rs: recover_cells_and_kzg_proofs (names the specification at line 121)", "eip7594/src/recovery.rs", "cryptography/erasure_codes/src/reed_solomon.rs"]}
{"id": "C52", "title": "G1 of BLS12-381 has the assumed structure", "statement": "The 381-bit modulus of the coordinates is prime; the generator lies on y^2 = x^3 + 4 and has exactly the order of the scalar field; every point killed by that order is a multiple of the generator by exactly one scalar; and a bilinear pairing that is not zero on the two generators vanishes against the G2 generator only at the identity.", "quantifier": "all points of the curve, all bilinear pairings", "why_tests_cant": "The primality of a 381-bit number and a statement about all curve points; every soundness argument of the library rests on them.", "anchors": ["cryptography/bls12_381/src/lib.rs: re-exports of blstrs", "eip7594/data/trusted_setup_4096.json: first point"]}
{"id": "C53", "title": "Decoding of G1 points is canonical", "statement": "A 48-byte string is decoded exactly if it is the encoding (compression flag, infinity flag, sign flag, coordinate below the modulus) of a point of the subgroup, and then to that point; each point has exactly one accepted encoding and a string encodes at most one point. Strings without the compression flag, with stray bits beside the infinity flag, with a coordinate not below the modulus or not on the curve, and encodings of points outside the subgroup are refused.", "quantifier": "all 48-byte strings, all points", "why_tests_cant": "2^384 strings; a second accepted encoding would make commitments malleable.", "anchors": ["eip7594/src/serialization.rs: deserialize_compressed_g1, serialize_g1_compressed", "eip7594/src/trusted_setup.rs: deserialize_g1_points"]}
{"id": "C54", "title": "The guarantees hold on BLS12-381 without assumptions on the curve", "statement": "Over G1 itself every setup of the right sizes gives a context that never panics, whose cells, proofs, decisions and recoveries are those of the consensus specification (with the exception of C51); with powers of tau the commitment of a blob encodes its polynomial at tau times the generator, and one cell is accepted exactly if the multipliers of commitment and proof satisfy the KZG equation in the scalar field.", "quantifier": "all setups, blobs, batches, hash functions and bilinear pairings", "why_tests_cant": "All inputs; the abstract theorems would be empty for this library if its group did not meet their assumptions.", "anchors": ["eip7594/src/lib.rs: DASContext", "eip7594/src/prover.rs", "eip7594/src/verifier.rs"]}
{"id": "C55", "title": "Contexts are created with the options the caller asked for", "statement": "A context has precomputed tables of width 8 (a width for which C25 guarantees the results) exactly if the caller asked for precomputation, through the C, Java, C#, Go, Nim and Node interfaces; its thread pool has as many workers as were asked for, zero meaning the number suggested by the system, and one worker if nothing was asked for. Java passes thread counts modulo 2^32, so the property holds there for counts from 0 to 2^32 - 1 only.", "quantifier": "all setups, flags, thread counts, allocators", "why_tests_cant": "Results do not depend on these options, so a test of results cannot see a lost option.", "anchors": ["bindings/c/src/lib.rs: eth_kzg_das_context_new", "bindings/java/rust_code/src/lib.rs: DASContextNew", "bindings/csharp/csharp_code/EthKZG.bindings/ethkzg.cs", "bindings/golang/prover.go: NewProverContext", "bindings/nim/nim_code/nim_eth_kzg/nim_eth_kzg.nim: newKZGCtx", "bindings/node/src/lib.rs: DASContextJs::create", "eip7594/src/lib.rs: with_threads, ThreadCount"]}
{"id": "C56", "title": "A commitment binds its cells", "statement": "If two different cells are accepted for the same commitment and index, alone or in batches, then a challenge fell into a set smaller than its batch, or the secret of the setup is one of the 64 points of the coset, or the accepted data and the public setup points give, by an explicit formula, e((tau - x)^-1 P, H) for a point x where the cells differ: the bilinear strong Diffie-Hellman problem is solved. No assumption on how commitment and proofs were made.", "quantifier": "all setups with powers of tau, all bilinear non-degenerate pairings, all byte strings, all hash functions", "why_tests_cant": "Tests cannot try all forgeries; this is a reduction to a hardness assumption.", "anchors": ["eip7594/src/verifier.rs: verify_cell_kzg_proof_batch", "cryptography/kzg_multi_open/src/fk20/verifier.rs: verify_multi_opening", "eip7594/src/lib.rs: DASContext"]}
{"id": "C57", "title": "Accepted cells are enough: half of the cells give back the blob behind the commitment", "statement": "If a batch of at least 64 cells with different indices for one commitment is accepted, then recovery returns the cells and proofs of a blob whose commitment is exactly that commitment and the supplied cells are cells of it, unless a challenge fell into a set smaller than the batch, the secret is one of the 8192 evaluation points, or the data give a solution of the bilinear strong Diffie-Hellman problem or a nonzero point together with its multiple by the value at tau of a monic polynomial of degree 4096, beyond the setup. For commitments and proofs that are combinations of the setup points this leaves at most 4159 secrets per cell.", "quantifier": "all setups with powers of tau, all bilinear non-degenerate pairings, all byte strings, all hash functions, all sets of at least 64 indices", "why_tests_cant": "The statement joins verification and recovery over all commitments and proofs an attacker can send.", "anchors": ["eip7594/src/verifier.rs: verify_cell_kzg_proof_batch", "eip7594/src/prover.rs: recover_cells_and_kzg_proofs, blob_to_kzg_commitment, compute_cells_and_kzg_proofs", "eip7594/src/recovery.rs"]}
{"id": "C58", "title": "Asynchronous Node methods return what the synchronous ones return", "statement": "For every interleaving of the workers of any number of asynchronous calls with JavaScript, a call that is resolved is resolved with what the synchronous method returns for the bytes that the arguments had when the method was called, provided that JavaScript does not write to the buffers of these arguments before; it is resolved after finitely many steps of its worker, and a result does not change later. Without the condition this fails: there is a run in which asyncComputeCells returns the cells of a blob that never was in memory.", "quantifier": "all contexts, all calls and arguments, all numbers of concurrent calls, all schedules, all writes", "why_tests_cant": "The worker reads the caller's buffer on another thread; the outcome depends on the schedule.", "anchors": ["bindings/node/src/lib.rs: async_blob_to_kzg_commitment, async_compute_cells_and_kzg_proofs, async_compute_cells, async_recover_cells_and_kzg_proofs, async_verify_cell_kzg_proof_batch"]}
{"id": "C59", "title": "The Java class CellsAndProofs", "statement": "toBytes returns the cells one after the other and then the proofs whenever this is shorter than 2^31 bytes, and throws in all other cases (null arrays, lengths whose int sum wraps around); for results of the library these are the 268288 bytes of the Rust result. equals holds exactly if the contents are equal, is false for null and other classes, and equal objects have equal hash codes. The hash code is, modulo 2^32, the documented one of a list of two arrays of arrays of bytes.", "quantifier": "all arrays of byte arrays, with or without null references", "why_tests_cant": "The wrap-around of the length needs more than two gigabytes; equality and hashing are about all pairs.", "anchors": ["bindings/java/java_code/src/main/java/ethereum/cryptography/CellsAndProofs.java: toBytes, hashCode, equals", "bindings/java/rust_code/src/lib.rs: cells_and_proofs_to_jobject"]}
{"id": "C60", "title": "Results do not depend on the machine", "statement": "recover_cells_and_kzg_proofs and verify_cell_kzg_proof_batch return the same on machines whose usize has 16 bits or more, with overflow checks (debug) and without (release): an index that a conversion to usize would truncate is refused first, and the size of the transcript cannot overflow if the decoded batch fits into memory. For larger batches the call panics or returns the same; no wrapped number makes it accept or refuse by mistake.", "quantifier": "all widths from 16, both overflow modes, all indices, cells, commitments and proofs", "why_tests_cant": "Tests run on one machine with small batches; the overflow needs batches as large as the address space.", "anchors": ["eip7594/src/recovery.rs: recover_polynomial_coeff (index as usize)", "cryptography/kzg_multi_open/src/fk20/verifier.rs: verify_multi_opening, compute_fiat_shamir_challenge, compute_sum_interpolation_poly"]}
{"id": "C61", "title": "Batch verification is sound against attackers who choose after hashing", "statement": "With the hash as a random oracle, an attacker who knows everything including the secret of the setup, asks for at most q hashes and puts out at most m batches of at most n claims, gets a false batch accepted for at most a fraction (q + m) * 3 * (n - 1) / 2^256 of the hash functions. Up to the same kind of fraction, contradicting accepted cells give a solution of the bilinear strong Diffie-Hellman problem, and accepted cells for half of the indices of a commitment are available or break the setup.", "quantifier": "all setups, all adaptive attackers, all numbers of questions, batches and claims (below 2^64)", "why_tests_cant": "It is a statement about all attackers and the distribution of the hash function.", "anchors": ["cryptography/kzg_multi_open/src/fk20/verifier.rs: verify_multi_opening, compute_fiat_shamir_challenge", "cryptography/bls12_381/src/lib.rs: reduce_bytes_to_scalar_bias", "eip7594/src/verifier.rs: verify_cell_kzg_proof_batch"]}
{"id": "C62", "title": "The reference implementations of the tests are right, and the fast algorithms agree with them everywhere", "statement": "naive::compute_multi_opening returns the commitment to the quotient by the vanishing polynomial of any two or more distinct points, and the values; it panics on repeated points. naive::verify_multi_opening decides the pairing equation for them, and accepts honest openings. fk20::naive::open_multi_point returns the proof and the values of every coset, and agrees with the former on each coset of generate_cosets. The FK20 prover without tables returns the same for every polynomial when the key has the length of the bound, and the commitments to the h polynomials agree. The Toeplitz products by FFT are the matrix products, the batched product is the sum of the single ones, and the dense reference agrees exactly when row and column have the same corner. The keys the tests use are powers of the secret -1, which lies in the first coset, so that a check on points that include it ignores the proof.", "quantifier": "all polynomials, keys, points, values, matrices and vectors; all power-of-two sizes below 2^32", "why_tests_cant": "The tests compare the two on a handful of polynomials, with one weak key.", "anchors": ["cryptography/kzg_multi_open/src/naive.rs", "cryptography/kzg_multi_open/src/fk20/naive.rs", "cryptography/kzg_multi_open/src/fk20/toeplitz.rs: vector_mul_g1, vector_mul_scalars, DenseMatrix", "cryptography/kzg_multi_open/src/fk20/cosets.rs: generate_cosets", "cryptography/kzg_multi_open/src/lib.rs: create_insecure_commit_verification_keys"]}
{"id": "C63", "title": "The bindings look for the native library of their platform, where the build scripts put it", "statement": "On Linux and macOS (x86-64, ARM) and Windows (x86-64) the Java and C# loaders ask for the library of that operating system and processor, and the build script compiles the Rust target of that name and puts the file there, and the archive where the Go and Nim bindings link it. The exception is Linux on ARM, where uname -m prints aarch64 and the script, which knows only arm64, stops for every binding. On Windows on ARM Java refuses and C# looks in a directory that no build makes. Whatever the system reports, Java asks for one of the five libraries or refuses, C# loads nothing for other libraries or systems, and Node loads a file or package whose name begins with the platform and the processor (or universal on a Mac) or throws. The release workflows build exactly the five targets, each into the directory and file its platform loads, so that with the files of a release Java and C# load the library of their platform on all five, including Linux on ARM; the jobs for Node cover the targets of its six packages.", "quantifier": "all platforms, all strings reported by the runtime, all contents of the file system", "why_tests_cant": "Each machine exercises one platform; the names occur in six files in five languages.", "anchors": ["bindings/java/java_code/src/main/java/ethereum/cryptography/LibEthKZG.java: loadNativeLibrary, getNormalizedArchitecture", "bindings/csharp/csharp_code/EthKZG.bindings/native_methods.loading.cs: LoadNativeLibrary", "bindings/node/index.js", "bindings/golang/prover.go: cgo lines", "bindings/nim/nim_code/nim_eth_kzg/build_utils.nim", "bindings/nim/nim_code/nim_eth_kzg/bindings.nim", "scripts/compile.sh", "scripts/compile_to_native.sh", ".github/scripts/compile_all_targets_java.sh", ".github/scripts/compile_all_targets_c_sharp_new.sh", ".github/workflows/release-java-bindings.yml"]}
{"id": "C64", "title": "Java loads the native library at most once, before it is used", "statement": "Any number of threads construct LibEthKZG objects, in any interleaving of their accesses to the volatile flag and the lock. The library is loaded at most once; no native method runs before it is loaded; at most one thread is inside the synchronized block; the threads never block each other for good and make at most seven steps each; if loading does not fail every constructor returns; if it fails in all of them the lock is free and the next constructor tries again.", "quantifier": "all numbers of threads, all interleavings, all failures of loading", "why_tests_cant": "A test runs few schedules; the races it would have to hit are a few instructions wide.", "anchors": ["bindings/java/java_code/src/main/java/ethereum/cryptography/LibEthKZG.java: ensureLibraryLoaded, constructors"]}
{"id": "C65", "title": "The array helpers of the C# binding are concatenation and splitting", "statement": "FlattenArray returns the arrays one after the other and never throws. DeflattenArray returns the whole pieces of the given length in order, drops a shorter rest, and throws for the length zero. Splitting undoes joining for arrays of one positive length.", "quantifier": "all arrays of total length below 2^31, all lengths", "why_tests_cant": "The helpers are private and no test calls them.", "anchors": ["bindings/csharp/csharp_code/EthKZG.bindings/ethkzg.cs: FlattenArray, DeflattenArray"]}
{"id": "C66", "title": "The declarations in the bindings agree with the exported functions on every machine", "statement": "Every foreign declaration in the bindings agrees with the exported function it stands for. C# (native_methods.g.cs) and Nim (header.nim): same symbol, same parameters in the same order, every argument read by the library is the one passed, every result seen by the caller is the one returned, pointers point at data of the expected size; on machines of either byte order with pointers of 4 or 8 bytes, whatever the padding contains. Java: the virtual machine finds each native method, the types are the native ones, and the address of a context survives in a Java long. Node: index.d.ts has the names and types of the exported methods, with a promise exactly for the asynchronous ones. No exported function is left out. All bindings declare the constants of the consensus specification.", "quantifier": "all exported functions and declarations, all byte orders and pointer sizes, all arguments and results, all padding", "why_tests_cant": "A wrong size, order or byte order of a parameter goes unnoticed on the machines the tests run on; big-endian machines are not tested at all.", "anchors": ["bindings/c/src/lib.rs: exported functions, CResult, CResultStatus", "bindings/csharp/csharp_code/EthKZG.bindings/native_methods.g.cs", "bindings/nim/nim_code/nim_eth_kzg/header.nim", "bindings/nim/nim_code/nim_eth_kzg/nim_eth_kzg.nim: blobToKZGCommitment, verify_result", "bindings/java/rust_code/src/lib.rs", "bindings/java/java_code/src/main/java/ethereum/cryptography/LibEthKZG.java: native methods", "bindings/java/rust_code/ethereum_cryptography_LibEthKZG.h", "bindings/node/index.d.ts", "bindings/node/src/lib.rs"]}
{"id": "C67", "title": "Several threads can use one C# object", "statement": "Whatever the interleaving of any number of threads that call the methods of one EthKZG object, `Dispose` included, there is no undefined behaviour: no native function uses a context that has been freed, and a context is freed at most once. Calls never end the process.", "quantifier": "all numbers of threads, all interleavings of the accesses to the field _context and the native calls, all contexts", "why_tests_cant": "The tests use an object from one thread and dispose of it at the end; the dangerous interleavings are rare and their effect is not deterministic.", "anchors": ["bindings/csharp/csharp_code/EthKZG.bindings/ethkzg.cs: _context, Dispose, BlobToKzgCommitment, ComputeCellsAndKZGProofs, VerifyCellKZGProofBatch, RecoverCellsAndKZGProofs", "bindings/c/src/lib.rs: eth_kzg_das_context_free"]}
{"id": "C68", "title": "Several threads can call the C API at the same time", "statement": "Any number of threads call functions of the C API at the same time, with the same or different contexts and with valid arguments, and no call writes where another reads or writes (inputs may be shared; the outputs of a call may overlap its own inputs). Then in every interleaving of their memory accesses and allocations there is no undefined behaviour and no data race; every call ends; a call that has ended has the status and the outputs that the library computes from its inputs, or the text of its error; all other memory and the contexts are unchanged; different calls get different error messages. Without the condition calls race.", "quantifier": "all numbers of threads, all calls and valid arguments, all contents of memory, all interleavings, all placements and failures of allocations, all hash functions", "why_tests_cant": "The tests of the C API run single calls; the number of interleavings of two calls is astronomic, and a race need not show.", "anchors": ["bindings/c/src/lib.rs: eth_kzg_blob_to_kzg_commitment, eth_kzg_compute_cells_and_kzg_proofs, eth_kzg_recover_cells_and_proofs, eth_kzg_verify_cell_kzg_proof_batch", "bindings/c/src/pointer_utils.rs", "bindings/c/src/lib.rs: CResult::with_error"]}
{"id": "C69", "title": "The C API and Rust's aliasing rules", "statement": "The C functions create Rust references from the pointers of their caller. Under Tree Borrows every call with valid arguments respects the aliasing rules, even when its outputs overlap its inputs, and does what C32 says; afterwards the caller may still access all memory. Under Stacked Borrows the same holds for a commitment, for a verification whose result lies outside its inputs, and for a computation or recovery that fails; but every computation or recovery of cells and proofs that succeeds violates the rules, since `write_to_2d_slice` makes the raw pointer to a cell from a reference to its first byte and then writes 2048 bytes through it, and so does a verification whose result lies in the array of cell indices.", "quantifier": "all valid arguments, all contents of memory, all earlier states of the aliasing rules in which the caller may access memory, all placements and failures of allocations, all hash functions", "why_tests_cant": "The compiled code does the same in either case; only a checker for the aliasing rules such as Miri, which does not run on the FFI tests of this project, could show a violation, and only for the inputs that it is run on.", "anchors": ["bindings/c/src/pointer_utils.rs", "bindings/c/src/blob_to_kzg_commitment.rs", "bindings/c/src/compute_cells_and_kzg_proofs.rs", "bindings/c/src/recover_cells_and_kzg_proofs.rs", "bindings/c/src/verify_cells_and_kzg_proofs_batch.rs"]}
{"id": "C70", "title": "The native Java methods and the rules of the Java Native Interface", "statement": "Each call that a native method makes to the Java virtual machine may raise an exception where the JNI specification allows one. If none does, the method does what the model of its values (C34) says, makes every call with no exception pending, and leaves an exception pending exactly if it throws; the class and constructor that it looks up exist. In any case it either does that or aborts the process, and it aborts exactly if the library panics or one of its calls raises an exception: such an exception (for instance OutOfMemoryError) never reaches the caller, because `throw_on_error` looks up a class while it is pending, which the JNI does not allow, and then panics. A commitment, and a verification of at most 15 items, hold at most the 16 local references that every virtual machine grants; every successful computation or recovery of cells and proofs, and every verification of more than 16 items, holds more, a number that grows with the batch.", "quantifier": "all virtual machines (any call may fail), all arguments including null arrays and null items, all contexts, all hash functions", "why_tests_cant": "The tests run on one virtual machine with enough memory, which grants far more local references than it must; none of the failing paths is reached.", "anchors": ["bindings/java/rust_code/src/lib.rs: all native methods, jobject_array_to_2d_byte_array, jlongarray_to_vec_u64, cells_and_proofs_to_jobject, throw_on_error", "bindings/java/java_code/src/main/java/ethereum/cryptography/CellsAndProofs.java: constructor"]}
{"id": "C71", "title": "C# arguments that are null or that change during the call", "statement": "For arguments without null references that nobody changes, the C# methods are those of C34. A null reference among the arguments, or among the items of a jagged array, when the lengths are checked leads to an exception before the library is called; it is NullReferenceException if all arrays have the right lengths, and memory, contexts and messages are as before. The methods read each item of a jagged array twice: for the length check and to take its address. If another thread replaces items in between by other non-empty arrays, the method gives the answer for the 2048 (48) bytes at the addresses of the new arrays, whatever their lengths are: right for arrays of the right size, a read behind the end of a shorter array. If an item is null or empty at the second read, the native code makes a slice from a null pointer, which is undefined behaviour.", "quantifier": "all pairs of reads of every item, all contexts, heaps, memory contents, all hash functions", "why_tests_cant": "The tests pass well-formed arrays from one thread; the window between check and use is a few instructions, and reading behind an array usually does not crash.", "anchors": ["bindings/csharp/csharp_code/EthKZG.bindings/ethkzg.cs: BlobToKzgCommitment, ComputeCellsAndKZGProofs, VerifyCellKZGProofBatch, RecoverCellsAndKZGProofs"]}
{"id": "C72", "title": "Parties that use different languages exchange data without disagreement", "statement": "Whatever language a party uses (Rust, C, Node, Java, C# without a collection during the call, Nim; Go for commitments), a call that returns gives the bytes of the Rust library or reports an error exactly when the library does or an argument has the wrong size. Hence two parties with contexts of the same setup never get different verdicts for the same batch, nor different commitments, cells, proofs or recovered data for the same input, in any two languages and with any two usable settings of precomputation. Every batch of tuples whose cells and proofs come from parties in any languages and whose commitments come from the same or other parties (Go included) is accepted by every verifier in every language: no verifier gets false or an error. Recovery in any language from 64 or more distinct cells got in any language gives the cells and proofs of the prover.", "quantifier": "all pairs of languages and settings, all processes, heaps and memory contents in which the arguments are stored, all setups (powers of tau for acceptance), all hash functions, all inputs", "why_tests_cant": "Every binding has its own tests with its own vectors; no test passes data from one language to another, and none can run all inputs in all languages.", "anchors": ["bindings/c/src/lib.rs", "bindings/java/rust_code/src/lib.rs", "bindings/node/src/lib.rs", "bindings/csharp/csharp_code/EthKZG.bindings/ethkzg.cs", "bindings/nim/nim_code/nim_eth_kzg/nim_eth_kzg.nim", "bindings/golang/prover.go", "eip7594/src/lib.rs"]}
{"id": "C73", "title": "G2 of BLS12-381 and its encoding", "statement": "The curve y^2 = x^3 + 4(1+u) over the field of p^2 elements has a generator of exactly the order of the scalar field, and every point killed by that order is a multiple of it by exactly one scalar. The reader without the subgroup test accepts a string of 96 bytes exactly if it is the published encoding of a point of the curve, and gives that point (the same for the 48 bytes of G1, also for points outside the subgroup); the reader with the test accepts exactly the encodings of points killed by the order. Two points never have the same encoding, and strings with a missing compression flag, a malformed infinity or a coordinate part that is not below the modulus are refused.", "quantifier": "all points of the curve, all strings of 96 (48) bytes", "why_tests_cant": "Statements about all points of a group of 762 bits; that the subgroup is cyclic rests on the primality of a 448-bit factor of the number of points.", "anchors": ["cryptography/bls12_381/src/lib.rs: re-exports of blstrs", "eip7594/src/trusted_setup.rs: deserialize_g2_points", "eip7594/data/trusted_setup_4096.json: first G2 point"]}
{"id": "C74", "title": "The verdict does not depend on the pairing", "statement": "For a bilinear pairing of the two groups that is not trivial on the generators, the product of pairings of multiples a, c of the G1 generator with multiples b, d of the G2 generator is trivial exactly if ab + cd = 0 in the scalar field, and the pairing of two points is trivial only if one of them is. Hence the verifier gives the same outcome with any two such pairings, whatever their target groups, for every context and input.", "quantifier": "all bilinear pairings non-trivial on the generators, all contexts, batches and hash functions", "why_tests_cant": "It is about every pairing; tests run one, and cannot show that nothing else about it matters.", "anchors": ["cryptography/bls12_381/src/lib.rs: multi_pairings", "cryptography/kzg_multi_open/src/fk20/verifier.rs: verify_multi_opening", "eip7594/src/verifier.rs: verify_cell_kzg_proof_batch"]}
{"id": "C75", "title": "From the text of the setup to commitments and verdicts", "statement": "The validation accepts a setup exactly if each of its strings is 0x and the hexadecimal digits of the encoding of a multiple of the generator of G1 (G2), and there are more than 64 G2 strings and no more than G1 strings; it panics on any other. For the text of 4096 powers of tau times the G1 generator and 65 to 4096 powers times the G2 generator, the readers with and without the subgroup test give these powers, and the context made from the text has commitments that encode the blob polynomial at tau times the generator and accepts a single cell exactly if the multipliers of commitment and proof satisfy the KZG equation in the scalar field.", "quantifier": "all texts of setups, all tau, blobs, cells, hash functions and bilinear pairings non-trivial on the generators", "why_tests_cant": "Tests load one setup file; the chain from text over curve points to the verdict is only exercised for it and for a few inputs.", "anchors": ["eip7594/src/trusted_setup.rs: validate_trusted_setup, deserialize_g1_points, deserialize_g2_points, From<&TrustedSetup>", "eip7594/src/lib.rs: DASContext::new"]}
{"id": "C76", "title": "The embedded trusted setup is sound", "statement": "The strings of the trusted setup embedded in the library, which the code reads without any subgroup test, are 4096 encodings of points of G1 and 65 of points of G2, all in the subgroups of prime order, none at infinity, the first ones being the two generators; the setup passes the validation that is skipped; the readers with and without the test give exactly these points; the default context is made without error and never panics, and its cells, proofs, decisions and recoveries are those of the consensus specification with these points (with the exception of C51). If the points are powers of some tau, it is unique and commitments and verdicts are those of the KZG scheme for tau. The context with precomputation of width 8 from this setup exists, and its commitments and verdicts are those without precomputation; if the points are powers of tau then tau is no root of unity of the kind that makes a table contain the point at infinity, so proving with tables panics or gives the same proofs.", "quantifier": "all strings of the embedded file; all blobs, batches, recoveries, hash functions and bilinear pairings for the context made from it", "why_tests_cant": "A unit test can run the subgroup check on the file, but with the same external library whose decoding is in question; it says nothing about all inputs of the context.", "anchors": ["eip7594/src/trusted_setup.rs: from_embed, TRUSTED_SETUP_JSON, Default", "eip7594/data/trusted_setup_4096.json", "eip7594/src/lib.rs: Default for DASContext"]}
{"id": "C77", "title": "Error messages are freed exactly once, except in Go", "statement": "A function of the C API that returns gives its caller no message with the status Ok and exactly one new, readable message with the status Err, for all arguments; freeing it once restores the messages from before the call, freeing it again is undefined. ThrowOnError of C# and verify_result of Nim free it exactly once, so that C# and Nim programs, whatever they pass to the methods, end with the messages they started with. The Go wrapper never frees a message: after any program the number of messages has grown by the number of calls in which the library rejected a blob of the right length.", "quantifier": "all arguments, valid or not, all states, allocators, garbage collections and sequences of calls", "why_tests_cant": "A leak or a second free of a message is invisible to a test that looks at results, and arguments and allocators cannot be enumerated.", "anchors": ["bindings/c/src/lib.rs: CResult, eth_kzg_free_error_message", "bindings/csharp/csharp_code/EthKZG.bindings/ethkzg.cs: ThrowOnError", "bindings/nim/nim_code/nim_eth_kzg/nim_eth_kzg.nim: verify_result", "bindings/golang/prover.go: BlobToKZGCommitment"]}
{"id": "C78", "title": "The blst table: exact sums, and out-of-bounds reads with too few scalars", "statement": "FixedBaseMSMPrecompBLST::new hands blst a table buffer of exactly the size it fills, for every list of generators and every width. With at least as many scalars as generators, none of them the identity, msm stays within its buffers and returns the sum of s_i * P_i over the generators. With fewer scalars msm, a safe function, makes blst read scalar pointers beyond the end of the array.", "quantifier": "all lists of generators and scalars, all widths, all scratch sizes", "why_tests_cant": "A read beyond the end of a vector usually returns some pointer and a wrong sum, or crashes only with certain allocations; tests pass lists of equal length.", "anchors": ["cryptography/bls12_381/src/fixed_base_msm.rs: FixedBaseMSMPrecompBLST::new, FixedBaseMSMPrecompBLST::msm"]}
{"id": "C79", "title": "A multithreaded C program that keeps the rules has no undefined behaviour and loses nothing", "statement": "A C program creates and frees contexts, starts calls from any number of threads while others are in progress, takes their results, frees error messages, and writes, maps and unmaps its own memory in between. If it starts only calls with valid arguments that do not write where a call in progress reads or writes, leaves alone what a call in progress was given, and frees each context (not in use) and each message once, then in every execution: nothing is undefined, each call ends with what the library computes from its inputs as they were when it started, no two calls race, each step leaves all mapped bytes outside the outputs unchanged, the live contexts are those the program holds, each as made by the library, and the messages it holds are intact error texts that do not overlap. When no call is in progress there are no others, so a program that frees what it holds leaves nothing behind. Breaking the rules on contexts and on freeing leads to undefined behaviour.", "quantifier": "all programs that keep the rules: all interleavings of the steps of all calls with the other actions, all allocators, all setups, all initial memories", "why_tests_cant": "Tests run a few schedules with one context and free nothing while calls are in progress; a use after free or a leak on one path needs a particular interleaving and a memory checker.", "anchors": ["bindings/c/src/lib.rs: eth_kzg_das_context_new, eth_kzg_das_context_free, eth_kzg_free_error_message, eth_kzg_blob_to_kzg_commitment, eth_kzg_compute_cells_and_kzg_proofs, eth_kzg_recover_cells_and_proofs, eth_kzg_verify_cell_kzg_proof_batch", "bindings/c/src/pointer_utils.rs"]}
{"id": "C80", "title": "With the embedded setup each of commitment, proof and cell element is determined by the others", "statement": "If the points of the embedded setup are the powers of some secret, then the secret is not zero and is none of the 8192 evaluation points, which is read off the file. Hence in every context made from it, whatever the precomputation: for each commitment, index and cell exactly one string of 48 bytes is accepted as the proof; for each index, cell and proof exactly one string is accepted as the commitment; for each commitment, index, proof and 63 of the 64 elements of the cell exactly one last element is accepted, so that a cell with one element changed is always refused with its old proof. The guarantees of C56 (two cells for one commitment) and C57 (availability) hold for these contexts without the exception for secrets among the evaluation points.", "quantifier": "all commitments, indices, cells, proofs, hash functions, and settings of the precomputation", "why_tests_cant": "Uniqueness is about all 2^384 strings of 48 bytes and all cells, and the absence of an accident in the secret is about a number that nobody knows.", "anchors": ["eip7594/data/trusted_setup_4096.json", "eip7594/src/trusted_setup.rs: from_embed", "cryptography/kzg_multi_open/src/fk20/verifier.rs: verify_multi_opening", "eip7594/src/verifier.rs: verify_cell_kzg_proof_batch"]}
{"id": "C81", "title": "Java arguments that change while a call reads them", "statement": "Other Java threads may write the arrays that are the arguments of a call in progress, between any two looks of the native method at them, even between the two halves of a 64-bit number. Whatever they write, each native method does exactly what it does with some arguments that do not change: the same result or exception, the same calls to the virtual machine, for every behaviour of that machine. Each byte, each half of a number and each inner array of those arguments was in its place at some moment of the call; arrays that nobody writes are seen with their contents. A verification that answers true has verified one fixed batch, the one that it has seen, so that nothing can be changed between a check and its use. The arguments seen need not have been in the arrays at any one moment: for each blob of two bytes or more there is a history in which the array never holds that blob, and the method commits to it.", "quantifier": "all histories of all arrays with fixed lengths, all arguments, contexts, hash functions, and behaviours of the virtual machine", "why_tests_cant": "A data race shows itself only for particular interleavings, and absence of a time-of-check to time-of-use gap is about all of them.", "anchors": ["bindings/java/rust_code/src/lib.rs: compute_cells_and_kzg_proofs, blob_to_kzg_commitment, verify_cell_kzg_proof_batch, recover_cells_and_kzg_proofs", "bindings/java/rust_code/src/lib.rs: jlongarray_to_vec_u64, jobject_array_to_2d_byte_array"]}
{"id": "C82", "title": "Arguments in memory that other threads write during the call", "statement": "The C, C#, Go and Nim bindings, and the asynchronous methods of the Node bindings, hand references to the caller's memory to the library, and other threads may write that memory during the call. Whatever they write, in what order the hash map compares and rehashes, commitment, cell and proof computation and recovery do what they do with arguments each byte of which was in its place at some moment; only the bytes that an error quotes may differ, and they too were seen in the place of the bytes that were refused. If nobody writes the arguments, the results are those of C01 to C20, including quoted bytes. Verification reads cells and proofs once, and if nobody writes the commitments its verdict is that on the commitments and on cells and proofs that were seen. If the commitments are written, each claim is verified against bytes seen at an address that is linked to its own by addresses at which the same string could be seen. Such writes do matter: commitments are compared and decoded at different moments, and of equal commitments only one is decoded. For every valid pair of claims there is a history in which the second commitment is not an encoding of a point at any moment, and the batch is accepted, although no batch each byte of which was in its place at some moment is accepted.", "quantifier": "all histories of memory, all addresses of all arguments (slices may overlap), all choices of the hash map, all hash functions and contexts", "why_tests_cant": "A race shows itself for particular interleavings only; the gap between comparison and decoding is a window of some hundred reads.", "anchors": ["eip7594/src/verifier.rs: deduplicate_with_indices, verify_cell_kzg_proof_batch", "eip7594/src/serialization.rs: deserialize_bytes_to_scalar, deserialize_compressed_g1", "eip7594/src/prover.rs: blob_to_kzg_commitment, compute_cells_and_kzg_proofs, recover_cells_and_kzg_proofs", "bindings/c/src/pointer_utils.rs", "bindings/node/src/lib.rs"]}
{"id": "C83", "title": "Sampling random columns shows that a blob can be recovered", "statement": "Each of n clients asks for k different columns (cells with proofs) at random and checks the reply with verify_cell_kzg_proof_batch. An attacker who sees all requests, knows everything but the hash function, asks for at most q hashes, and then chooses the commitment and all replies, can make m clients accept only if from the columns these clients hold recovery returns the cells and proofs of a blob with that commitment, or the columns break the setup by a fixed computation; except for a fraction of hash functions and requests of at most C(n,m) C(128,63) ((63)_k/(128)_k)^m, where (a)_k = a(a-1)...(a-k+1), plus (q + n) 3(k - 1)/2^256. The first term is at most 2^(n + 128 - km). A publisher who must put the columns up before a single client draws its request gets past it for a fraction of (63)_k/(128)_k <= 2^-k of the requests, plus (q + 1) 3(k - 1)/2^256, unless recovery succeeds on the columns that are accepted one by one; and withholding 65 columns attains (63)_k/(128)_k.", "quantifier": "all numbers of clients, columns and accepting clients, all attackers (strategies depending on all requests and on hash values), all setups of powers of a secret that is no evaluation point", "why_tests_cant": "The claim quantifies over all strategies of a withholding publisher and counts over all requests and hash functions; it is the purpose of the library, and rests on verification, binding and recovery together.", "anchors": ["eip7594/src/verifier.rs: verify_cell_kzg_proof_batch", "eip7594/src/prover.rs: recover_cells_and_kzg_proofs", "eip7594/src/recovery.rs", "eip7594/src/constants.rs: CELLS_PER_EXT_BLOB"]}
{"id": "C84", "title": "Columns of several blobs, and agreement between nodes that recover", "statement": "With n blobs a column holds one cell and one proof of each blob, and clients check each column in one call of verify_cell_kzg_proof_batch with all commitments. The bound of C83 on the requests holds unchanged for all blobs together: if m of c clients with k random columns each accept, every one of the n blobs is recovered from what they hold, or the setup is broken, except for a fraction of C(c,m) C(128,63) ((63)_k/(128)_k)^m plus (q + c k) 3(n - 1)/2^256 of requests and hash functions. Nodes that recover from different accepted sets of at least 64 columns for one commitment get the same cells and the same proofs, unless two different blobs with that commitment show a polynomial of degree at most 4095 of which the secret is a root, or the setup is broken as in C57; an attacker who asks for q hashes and picks the columns of c nodes gets around this for a fraction of at most (q + c) 381/2^256 of the hash functions.", "quantifier": "all numbers of blobs, clients, columns and nodes, all attackers (strategies depending on requests and hash values), all setups of powers of a secret that is no evaluation point", "why_tests_cant": "The claim quantifies over all strategies of a publisher who splits the network, and over all sets of columns.", "anchors": ["eip7594/src/verifier.rs: verify_cell_kzg_proof_batch", "eip7594/src/prover.rs: recover_cells_and_kzg_proofs, blob_to_kzg_commitment", "eip7594/src/recovery.rs"]}
{"id": "C85", "title": "What passing the conformance suites says about a library", "statement": "Each language has a program that runs the library on the files in test_vectors and compares. For every file with hex strings and every library (an arbitrary function): the Java and Node tests pass a file exactly if the library returns the expected output or refuses as expected; so do the Rust and Nim tests, which do not call the library for inputs of a wrong size but ask the file to expect an error; the C# test does if the framework counts assertions whose exceptions are caught, otherwise files that expect an error always pass. Exceptions: the Rust tests of cells and proofs compare only as many entries as there are expected proofs (exact for 128 of each); the Nim test of commitments passes every file that expects an error, also if the library returns a commitment; the Go test passes for every library that does not panic on one blob. Suites pass exactly if there is a file and all pass. Run on the library, in Rust or through the wrappers, the suites pass a file exactly if its output is that of the consensus specification (with these exceptions, and that of C51 for recovery). A vector of commitments whose blob is not a hex string fails the Rust test with every library, and passes the Java test with every library exactly if it expects an error; an output that is neither null nor a hex string fails both.", "quantifier": "all libraries, all test files with hexadecimal byte strings, all inputs, hash functions and setups", "why_tests_cant": "It is a statement about the tests themselves: which wrong libraries they let pass.", "anchors": ["eip7594/tests/common.rs", "eip7594/tests/blob_to_kzg_commitment.rs", "eip7594/tests/compute_cells_and_kzg_proofs.rs", "eip7594/tests/recover_cells_and_kzg_proofs.rs", "eip7594/tests/verify_cell_kzg_proof_batch.rs", "bindings/java/java_code/src/test/java/ethereum/cryptography/LibEthKZGTest.java", "bindings/csharp/csharp_code/EthKZG.test/RefTests.cs", "bindings/node/__test__/index.spec.ts", "bindings/nim/nim_code/tests/test_yaml.nim", "bindings/golang/prover_test.go"]}
{"id": "C86", "title": "How claims are grouped into batches", "statement": "A claim is a commitment, a cell index, a cell and a proof. A batch of true claims is accepted for every hash function, in every order and with repetitions; a claim checked by itself is accepted exactly if it is true; so if each claim is accepted by itself, so is every batch of them. A batch is refused as malformed exactly if one of its entries is malformed. If a batch is refused, with whatever error, one of its claims is refused by itself with the same error for every hash function: the culprit can be found by checking the claims one by one. With the hash as a random oracle, an attacker who knows the secret, asks q hashes and chooses m batches with at most n claims each: for all but a fraction (q + m) * 3 (n - 1) / 2^256 of the hash functions every batch is accepted exactly if all its claims are true, and any two nodes that have the same claims, grouped and ordered in different ways, agree. For some hash functions they do not: there are two claims, one false, whose batch is accepted, and refused after they change places. The same is stated for contexts made from the embedded setup on BLS12-381, together with the theorems of C61, C83 and C84.", "quantifier": "all claims, batches, orders, groupings, hash functions, contexts and setups of powers; all attackers with the given numbers of queries", "why_tests_cant": "The number of ways to group claims is unbounded and the exceptions need hash functions that no test can choose.", "anchors": ["eip7594/src/verifier.rs:verify_cell_kzg_proof_batch", "cryptography/kzg_multi_open/src/fk20/verifier.rs:verify_multi_opening"]}
{"id": "C87", "title": "The setups with which the library accepts its own proofs", "statement": "The library does not check its setup. For any points (4096 in G1, at least 65 in G2) whatsoever: every batch of cells and proofs that the library makes is accepted, for every hash function, if for all j the pairing of G1 point j+64 with G2 point 0 equals that of G1 point j with G2 point 64; conversely, if for one cell index the cell and proof of every blob are accepted by themselves, the setup has this property. On BLS12-381 these are exactly the setups in which the last 4032 points of G1 continue the first 64 with the ratio of the two G2 points: the first 64 are arbitrary. So accepting one's own proofs says little: there is a setup that begins with the generators, with which everything honest is accepted, which is not made of the powers of any number and with which 64 different blobs have the same commitment. What the other theorems assume, powers of one number, holds exactly if neighbouring points pass the pairing checks of the ceremony; for the embedded setup a secret exists exactly if they do.", "quantifier": "all lists of points, blobs, batches, cell indices, hash functions and precomputation settings of the verifier", "why_tests_cant": "It quantifies over all setups, and it shows what tests with one's own proofs cannot see.", "anchors": ["eip7594/src/lib.rs:DASContext::new", "eip7594/src/trusted_setup.rs", "cryptography/kzg_multi_open/src/fk20/verifier.rs:verify_multi_opening", "cryptography/kzg_multi_open/src/fk20/prover.rs:compute_multi_opening_proofs"]}
{"id": "C88", "title": "Attackers that use the groups as black boxes", "statement": "An attacker who does not know the secret combines setup points with coefficients of its choice, asks adaptively whether products of pairings of such combinations are trivial, and does not look at encodings. With q questions it ends with the same result for all secrets but at most 4159 q; so it finds the secret for at most 4159 q + 1 of them. It gets a cell accepted that is not the cell of the polynomial in its commitment for at most 4159 (q + 1) secrets, whatever the hash function and precomputation; this bound is attained for every set of that many secrets outside the cell's points. It finds two blobs with one commitment for at most 4159 q + 4095 secrets, and 64 or more cells that are accepted one by one although recovery does not return a blob with that commitment for at most 4159 (q + 128). On BLS12-381 2^128 questions give a wrong cell for a fraction of at most 2^-112 of the secrets.", "quantifier": "all adaptive attacks (decision trees of pairing-product questions), all secrets, hash functions, precomputation settings; all groups with a non-degenerate pairing", "why_tests_cant": "It counts secrets and quantifies over all attacks.", "anchors": ["eip7594/src/verifier.rs: verify_cell_kzg_proof_batch", "cryptography/kzg_multi_open/src/fk20/verifier.rs: verify_multi_opening", "eip7594/src/prover.rs: blob_to_kzg_commitment", "eip7594/src/prover.rs: recover_cells_and_kzg_proofs"]}
{"id": "C89", "title": "Recorded test vectors, and all constant blobs", "statement": "With every setup, a blob of 4096 equal numbers has that multiple of the first point as commitment, repeats the number in all cells, and has the encoding of infinity as every proof. With the setup embedded in the library, the library returns the recorded commitment or refuses as recorded for all 11 files of blob_to_kzg_commitment and with every precomputation setting. For the 11 files of compute_cells_and_kzg_proofs and the 15 of recover_cells_and_kzg_proofs it refuses as recorded and returns the recorded cells; the recorded proofs are shown for constant blobs, and one for another blob. For 24 of the 30 files of verify_cell_kzg_proof_batch, all but those with proofs of blobs that are not constant, it accepts, reports an invalid proof or refuses as recorded, for every non-degenerate bilinear pairing and every hash function; and with every setup it accepts every batch of constant cells whose proofs are infinity.", "quantifier": "constant blobs and batches of their cells: all numbers below the order, setups, precomputation settings and hash functions; recorded vectors: the files named, a finite set, evaluated in the kernel; all Lagrange parts of the setup", "why_tests_cant": "The statement about constant blobs covers all numbers and setups. For the recorded files the theorems are about the model that the other theorems use, on the real curve: they tie that model to the recorded behaviour.", "anchors": ["test_vectors/blob_to_kzg_commitment", "test_vectors/compute_cells_and_kzg_proofs", "test_vectors/recover_cells_and_kzg_proofs", "eip7594/tests/blob_to_kzg_commitment.rs", "eip7594/tests/compute_cells_and_kzg_proofs.rs", "eip7594/tests/recover_cells_and_kzg_proofs.rs", "test_vectors/verify_cell_kzg_proof_batch", "eip7594/tests/verify_cell_kzg_proof_batch.rs"]}
{"id": "C90", "title": "Linear combinations", "statement": "The commitment, the cells and the proofs of a linear combination of two blobs are the same linear combination of their commitments, cells and proofs, and the combination of two canonical blobs exists and is unique. If recovery succeeds on two lists of cells with the same indices, it succeeds on their combination and returns the combination of the results. If two claims about one index are accepted, so is their combination, for all hash functions; if one of them is not, the combination is accepted only if that claim has coefficient zero; and if two independent combinations are accepted, both claims are.", "quantifier": "all pairs of canonical blobs, coefficients, setups with 4096 points (commitments: and precomputation settings), lists of cells and indices on which recovery succeeds, claims, hash functions; verification: all powers-of-tau setups and non-degenerate pairings", "why_tests_cant": "Relates three runs of each function on inputs that range over all pairs of blobs and all coefficients; a test sees single triples.", "anchors": ["eip7594/src/prover.rs", "eip7594/src/verifier.rs", "cryptography/kzg_multi_open/src/fk20/prover.rs", "cryptography/kzg_multi_open/src/fk20/verifier.rs", "cryptography/erasure_codes/src/reed_solomon.rs"]}
{"id": "C91", "title": "Unit tests as programs", "statement": "Every unit test of the Rust crates, written as a program over the model with its data as parameters, passes on all data for which it should: the tests of polynomials, transforms, bit reversal, cosets, Toeplitz matrices, erasure codes, FK20, the reference implementations, proving and verifying, deduplication and repeated indices pass for all inputs and sizes, or exactly if the expected values are right. The tests that draw random points pass exactly if no pairing tree of the batched additions has opposite neighbours, so that they can fail; the test of the reference verifier passes exactly if the changed points do not fulfil the equation of the proof at the secret -1 of the test keys; the tests that should panic do.", "quantifier": "all polynomials, points, scalars, messages, erased blocks, powers of two within the field's two-adicity, generators, pairings and hash functions", "why_tests_cant": "This is about the tests themselves: each runs on one choice of data, the theorems say on which data it passes at all.", "anchors": ["cryptography/bls12_381/src/batch_addition.rs", "cryptography/bls12_381/src/fixed_base_msm.rs", "cryptography/polynomial/src/poly_coeff.rs", "cryptography/erasure_codes/src/reed_solomon.rs", "cryptography/kzg_multi_open/src/fk20/prover.rs", "cryptography/kzg_multi_open/src/naive.rs", "eip7594/src/verifier.rs"]}
{"id": "C92", "title": "The binding tests that create contexts", "statement": "testMultipleInstanceCreation of the Java binding, with the blob as parameter, ends with all assertions true exactly if the blob has 131072 bytes with canonical elements, and with an exception otherwise; in both cases the contexts it made are freed and the process is as before. TestBridgeNewProverCtx of the Go binding passes if no garbage is collected between the evaluation of the context pointer and the start of the C function, and uses a freed context if it is.", "quantifier": "all blobs (including null), initial states of the process, allocators that can place what the test asks for, and setups with 4096 points for which the precomputed context can be created", "why_tests_cant": "This is about the tests themselves: the Java test uses one blob, and whether the Go test is undefined behaviour depends on the moment at which garbage is collected.", "anchors": ["bindings/java/java_code/src/test/java/ethereum/cryptography/LibEthKZGTest.java", "bindings/golang/prover_test.go", "bindings/golang/prover.go"]}
{"id": "C93", "title": "Fewer than half of the cells do not determine the blob", "statement": "Whatever contents are prescribed for n <= 64 different cells, exactly r^(4096 - 64 n) blobs have these cells (r is the order of the scalar field): one if n = 64. If n < 64 and a commitment is prescribed as well, exactly one choice of the n proofs can occur together with them, and with it r^(4095 - 64 n) blobs are consistent. Any function from the commitment, the n cells and the n proofs to a blob is right for at most r^(64 n + 1) of the r^4096 blobs.", "quantifier": "all setups that are powers of a secret which is no evaluation point (including the embedded one), all sets of cell indices, all canonical cell contents, all commitments to multiples of the generator, all guessing functions", "why_tests_cant": "The statement counts sets of blobs with thousands of bits, and ranges over all ways of using what was received.", "anchors": ["eip7594/src/prover.rs", "eip7594/src/recovery.rs", "cryptography/erasure_codes/src/reed_solomon.rs", "cryptography/kzg_multi_open/src/fk20/prover.rs"]}
{"id": "C94", "title": "What the benchmarks measure", "statement": "What the measured call of every benchmark returns is known. The benchmarks of the API create the context; the ones that compute and that recover the cells and proofs end in the same way, with those that a default context computes or with a panic, which no more than 2^34 secrets of the setup can cause; the verification accepts. The benchmarks of the polynomial and the curve crates compute values, transforms, inverses (a panic if a scalar is zero) and sums of multiples (the window method may panic). The benchmark of the erasure decoder measures a call that returns an error, whatever blocks it drops. The two benchmarks of FK20 use the secret -1 with precomputed tables and panic on all but at most one polynomial in 400.", "quantifier": "all random draws of the benchmarks (polynomials, points, scalars, orders of the shuffle), all setups of the right size, all curves, pairings and hash functions", "why_tests_cant": "A benchmark drops the results of the calls it measures, so an error is measured silently, and whether it panics depends on what it draws.", "anchors": ["eip7594/benches/benchmark.rs", "cryptography/kzg_multi_open/benches/benchmark.rs", "cryptography/erasure_codes/benches/benchmark.rs", "cryptography/polynomial/benches/benchmark.rs", "cryptography/bls12_381/benches/benchmark.rs"]}
{"id": "C95", "title": "Errors in an otherwise true batch", "statement": "If all claims before and after a part of a batch are true, verify_cell_kzg_proof_batch accepts the batch exactly if it accepts the part alone under the digest of the whole, or there are claims before the part, the part is well-formed and the challenge is zero. So a batch with exactly one false claim is accepted exactly if that claim is well-formed, is not the first, and the digest is 0, r or 2 r; a false first claim alone is always noticed. If the false claims lie within m consecutive ones, at most m - 1 challenges besides zero are accepted. Replacing the proof, the commitment, or one element of the cell in a true claim by any other bytes of the same length makes it false. The bound n - 1 of C07 on the number of accepted challenges is attained for every n and every set of challenges.", "quantifier": "all setups that are powers of a secret (including the embedded one), batches, positions, altered bytes and hash functions", "why_tests_cant": "No test can find a batch with one false claim that is accepted, since that needs a digest that is zero modulo r; that none other is accepted concerns all digests.", "anchors": ["eip7594/src/verifier.rs", "cryptography/kzg_multi_open/src/fk20/verifier.rs", "cryptography/kzg_multi_open/src/fk20/batch_toeplitz.rs"]}
{"id": "C96", "title": "Wrong cells in recovery", "statement": "If of n cells that arrived at least one and at most 64 (n - 64) elements are wrong (so in particular at least one and at most n - 64 cells), recover_cells_and_kzg_proofs returns an error, the one of the decoder if all elements are canonical. For every larger set of elements or cells there are contents, wrong exactly there, from which it returns the cells and proofs of another blob. If w of the cells are wrong, recovery from any part of at least 64 + w cells succeeds exactly if the part has no wrong cell, and then returns what was sent. Of the r^(64 n) contents of n cells exactly r^4096 are accepted.", "quantifier": "all setups of the right size, blobs, lists of at least 64 different cells in any order, sets of wrong elements and contents of wrong cells", "why_tests_cant": "The statement is about all positions and contents of errors, and about inputs that no test would find by chance.", "anchors": ["eip7594/src/recovery.rs", "eip7594/src/prover.rs", "cryptography/erasure_codes/src/reed_solomon.rs"]}
{"id": "C97", "title": "How biased the challenge is", "statement": "The challenge of batch verification is a digest of 256 bits reduced modulo r. Every scalar below 2^256 - 2 r comes from exactly three digests, every other from exactly two; zero, which the code does not handle, comes from three. The statistical distance from a uniform scalar is (2^256 - 2 r)(3 r - 2^256) / (r 2^256), between 7.4 and 7.5 percent, so the challenge is not close to uniform; but every set S of challenges is hit by at most 3 |S| digests, that is with probability at most |S| / 2^254, which is what the argument in the comment of the code needs. The bound 3 (n - 1) of C07 on the digests that let a false batch of n claims pass is attained.", "quantifier": "all digests, scalars and sets of scalars; all batch sizes up to 2^256 - 2 r + 1 and all setups that are powers of a secret for the last part", "why_tests_cant": "The statement counts the preimages of each of about 2^255 scalars among 2^256 digests.", "anchors": ["cryptography/kzg_multi_open/src/fk20/verifier.rs", "cryptography/bls12_381/src/lib.rs"]}
{"id": "C98", "title": "What a change to a blob changes", "statement": "If m elements of a blob change, fewer than m of the 4096 elements of the extension (cells 64 to 127) stay the same; so if m is between 1 and 64 all 64 cells of the extension change. A cell of the first half changes exactly if one of its elements does. For every set of elements of the blob and every smaller set of elements of the extension there is a change to exactly the former that keeps exactly the latter. Each element of the extension is -2/4096 times the sum of a_i w_i / (x - w_i), and the commitment is (t^4096 - 1)/4096 times that sum at the secret t. Two blobs have the same commitment exactly if the sum over the changed elements is zero; one changed element always changes it. The proof of a cell that does not change stays the same exactly if the commitment does.", "quantifier": "all blobs and pairs of blobs, all sets of elements; all setups of the right size, for commitments and proofs those that are powers of a secret outside the domain, including the embedded one", "why_tests_cant": "The statement is about all pairs of blobs and all sets of changed positions.", "anchors": ["eip7594/src/prover.rs", "cryptography/kzg_multi_open/src/fk20/prover.rs", "cryptography/polynomial/src/domain.rs"]}
{"id": "C99", "title": "The multi-opening verifier is right at all sizes, and what it does not check about its sizes", "statement": "For every root of unity of order 2^e, every number 2^k of cosets and every coset size 2^s, and keys that are powers of one secret, verify_multi_opening hashes the stated transcript and accepts claims exactly if the sum of their defects with the powers of the challenge pairs to zero; otherwise it reports InvalidProof. True claims are always accepted; if one of n claims is false, at most n - 1 challenges lead to acceptance. At all sizes at which the FK20 prover is right, the verifier accepts everything it returns. With e = k + s the cosets are the groups of consecutive points in bit-reversed order. The constructors succeed exactly if there are more G2 points than a coset has points and at least 2^e / 2^k; they do not check that 2^e is the product of the other two (then different numbers stand for the same coset), nor the number of G1 points (with fewer than 2^s every claim panics), nor that the coset size is a power of two (if it is not, every claim panics). Of the numbers of values only the sum is checked: claims with twice, half and half as many values as a coset has points can be accepted.", "quantifier": "all sizes below 2^32, keys, hash functions, batches of claims and challenges", "why_tests_cant": "The tests use one choice of sizes.", "anchors": ["cryptography/kzg_multi_open/src/fk20/verifier.rs", "cryptography/kzg_multi_open/src/verification_key.rs", "cryptography/kzg_multi_open/src/fk20/cosets.rs: coset_gens"]}
{"id": "C100", "title": "The FK20 prover is right only for polynomials given with all coefficients", "statement": "Every prover that the constructor returns (polynomial bound 2^(q+s), cosets of 2^q points) evaluates and commits to shorter lists of coefficients rightly, but for every number of coefficients 2^(q+t) with t < s there is a polynomial of degree below the coset size for which, without an error, some proof is not the commitment to the quotient; with keys that are powers of one secret outside the domain, the verifier of the same sizes rejects that proof with the commitment and the values of the prover. The same polynomials padded with zeros to the bound get the right proofs and the same commitment. A number of coefficients that is not a power of two or is below the coset size panics. Recovery never hands the prover a number of coefficients other than 4096, so the protocol functions are not affected.", "quantifier": "all sizes below 2^32 with q + s at most the size of the points, all keys without the identity element (for the padded polynomials keys of exactly the bound's length), all lists of coefficients", "why_tests_cant": "The tests only use polynomials with all coefficients.", "anchors": ["cryptography/kzg_multi_open/src/fk20/prover.rs: compute_multi_opening_proofs", "cryptography/kzg_multi_open/src/fk20/h_poly.rs"]}
{"id": "C101", "title": "Data of other lengths are spread out or thinned out by the FK20 prover, without an error", "statement": "Given data with 2^t values, a prover for polynomials of bound 2^b commits to and opens the only polynomial below the bound whose values at the points in bit-reversed order are the laid out data: if t <= b, value i is at place 2^(b-t) i and all other places are zero (the data are not padded at the end); if t > b, place i has value 2^(t-b) i and all other values are ignored, so data that differ only there have the same commitment and proofs. Commitment, values and proofs of that polynomial are right. A number of values below 2^32 that is not a power of two panics.", "quantifier": "all sizes below 2^32, all data, all keys (for the proofs keys of exactly the bound's length)", "why_tests_cant": "The tests only use data with as many values as the bound.", "anchors": ["cryptography/kzg_multi_open/src/fk20/prover.rs: commit, compute_multi_opening_proofs", "cryptography/kzg_multi_open/src/fk20/cosets.rs: reverse_bit_order", "cryptography/polynomial/src/domain.rs: ifft_scalars"]}
