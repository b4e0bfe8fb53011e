{"id": "C01", "title": "Merkle uids are consecutive", "statement": "Every successful add_commitment_hash returns exactly the number of commitments added before it, and entry_count afterwards is one more, across any interleaving of adds, commits and re-opens.", "quantifier": "all sequences of add / commit / re-open operations on the persistent tree, all commitments", "why_tests_cant": "The claim is about every history; a test fixes one history of a few insertions.", "anchors": ["accumulators/src/merkle_tree.rs: add_commitment_hash, entry_count, PersistentMerkleTree::new"]}
{"id": "C02", "title": "Every added commitment keeps a verifying membership proof", "statement": "After any sequence of at most 3^20 additions, for every uid handed out, generate_proof succeeds, and verify accepts the proof for the commitment that was added under that uid, with the proof's root equal to get_root.", "quantifier": "all leaf sequences up to tree capacity, all uids handed out, all later additions and commits", "why_tests_cant": "3^20 leaves and all later insertions cannot be enumerated; the path/key arithmetic has a special case per residue.", "anchors": ["accumulators/src/merkle_tree.rs: generate_proof, get_path_keys, verify, add_commitment_hash"]}
{"id": "C03", "title": "Merkle root is a function of the leaf sequence only", "statement": "The root after a history equals the root of the complete ternary tree of depth 20 over the added leaves (absent positions default to zero, untouched subtrees to zero), regardless of where commits happened or whether the store was re-opened in between.", "quantifier": "all histories of add/commit/re-open", "why_tests_cant": "Root equality must hold for all histories; incremental updates through cache and store have unboundedly many shapes.", "anchors": ["accumulators/src/merkle_tree.rs: add_commitment_hash, get_root, commit, new"]}
{"id": "C04", "title": "Merkle proofs bind position and value", "statement": "If the three-to-one compression is collision free, then two proofs of the same length that verify against the same root along the same left/middle/right directions prove the same commitment; so a proof accepted for the current root at a uid's path can only be for the leaf stored there.", "quantifier": "all proofs, commitments and roots", "why_tests_cant": "Soundness quantifies over adversarial proofs.", "anchors": ["accumulators/src/merkle_tree.rs: verify, TreePath, Proof"]}
{"id": "C05", "title": "Committed Merkle versions are immutable", "statement": "Once a version has been committed, get_root_with_depth_and_version for that version keeps returning the same root under every later sequence of additions, commits and session discards.", "quantifier": "all histories after the commit, all depths, all committed versions", "why_tests_cant": "Needs all continuations of the history.", "anchors": ["accumulators/src/merkle_tree.rs: get_root_with_depth_and_version, commit, ImmutablePersistentMerkleTree"]}
{"id": "C06", "title": "Re-opening a tree recovers the committed state", "statement": "Opening the tree on a store after a crash at any point yields exactly the leaves, root and entry count of the last successful commit; opening right after a commit is indistinguishable from continuing.", "quantifier": "all histories, all crash points", "why_tests_cant": "Crash points are quantified over.", "anchors": ["accumulators/src/merkle_tree.rs: PersistentMerkleTree::new, commit, ENTRY_COUNT_KEY"]}
{"id": "C07", "title": "Depth-limited proofs refuse ids that do not fit", "statement": "generate_proof_with_depth(id, depth) returns an error when id does not fit in a tree of that depth, and any proof it returns verifies against the root it carries.", "quantifier": "all ids and depths", "why_tests_cant": "Boundary behaviour for every depth; tests use one depth.", "anchors": ["accumulators/src/merkle_tree.rs: generate_proof_with_depth"]}
{"id": "C08", "title": "get_leaf returns the commitment added under a uid", "statement": "get_leaf(uid) returns the commitment that add_commitment_hash stored when it returned uid.", "quantifier": "all histories and uids", "why_tests_cant": "Must hold for all uids; the tree root alone passes small tests.", "anchors": ["accumulators/src/merkle_tree.rs: get_leaf"]}
{"id": "C09", "title": "A full tree refuses further commitments", "statement": "When 3^20 commitments have been added, add_commitment_hash returns an error and leaves the tree unchanged.", "quantifier": "all full trees", "why_tests_cant": "A test would have to insert 3.4 billion leaves.", "anchors": ["accumulators/src/merkle_tree.rs: add_commitment_hash, LEAF_START"]}
{"id": "C10", "title": "A failed commit leaves memory and store in agreement", "statement": "If commit returns an error (session discarded), the tree object afterwards behaves as the last committed tree: entry_count, root and the next uid agree with the store.", "quantifier": "all histories and failing commits", "why_tests_cant": "Failure points are environmental.", "anchors": ["accumulators/src/merkle_tree.rs: commit, entry_count"]}
{"id": "C11", "title": "Tree node keys are geometrically sound", "statement": "For every uid below 3^depth the path keys start at the uid's leaf, each key is the parent of the preceding one in the ternary heap numbering with the side (left/middle/right) matching the child position, and end at the root after exactly 20 steps; different uids have different leaf keys and the node keys never collide with the entry-count key.", "quantifier": "all uids below 3^20", "why_tests_cant": "Index arithmetic over 3.4 billion uids.", "anchors": ["accumulators/src/merkle_tree.rs: get_path_keys, get_path_keys siblings, LEAF_START, ENTRY_COUNT_KEY"]}
{"id": "C12", "title": "Non-confidential multi-asset verification is exactly per-asset conservation", "statement": "Verification of a body with non-confidential records and no proof accepts iff every record is fully non-confidential and for every asset type the input amounts sum to the output amounts, as unbounded integers.", "quantifier": "all lists of inputs and outputs", "why_tests_cant": "All list shapes, amounts including those whose sum exceeds 64 bits.", "anchors": ["api/src/xfr/mod.rs: verify_plain_asset_mix, batch_verify_xfr_body_asset_records"]}
{"id": "C13", "title": "Transfer construction refuses unbalanced transfers", "statement": "gen_xfr_body accepts the given records only if for each asset type inputs and outputs balance exactly, and only if the supplied keys match the input owners one for one.", "quantifier": "all lists of opened records and key pairs", "why_tests_cant": "Order of records, grouping in a hash map and number of asset types are unbounded.", "anchors": ["api/src/xfr/mod.rs: check_asset_amount, check_keys, gen_xfr_body"]}
{"id": "C14", "title": "Transfer classification is faithful", "statement": "The transfer type chosen from inputs and outputs is determined by: single asset or not, any confidential amount, any confidential type; and the proof variant produced always is the one for which the verifier checks the hidden fields.", "quantifier": "all lists of inputs and outputs", "why_tests_cant": "All combinations of list contents.", "anchors": ["api/src/xfr/mod.rs: XfrType::from_inputs_outputs, gen_xfr_proofs_single_asset, gen_xfr_proofs_multi_asset"]}
{"id": "C15", "title": "Single-asset non-confidential verification", "statement": "The plain-amount check accepts iff every amount is public and total input equals total output as integers (overflow cannot make an unequal pair pass), and the plain-asset check accepts iff every record shows one and the same asset type.", "quantifier": "all lists of amounts and asset types", "why_tests_cant": "Sum overflow cases and list shapes.", "anchors": ["api/src/xfr/mod.rs: verify_plain_amounts, verify_plain_asset, safe_sum_u64"]}
{"id": "C16", "title": "Confidential amounts cannot inflate", "statement": "If the aggregated range proof for a confidential transfer is accepted then, for any values and blinds opening the commitments with each limb and the difference in range, total input amount is at least total output amount as integers; equality as in the plain case should hold.", "quantifier": "all amounts, numbers of records, blinding factors", "why_tests_cant": "Field wrap-around and aggregation arguments cover all values.", "anchors": ["api/src/xfr/proofs.rs: gen_range_proof, batch_verify_confidential_amount, extract_value_commitments"]}
{"id": "C17", "title": "Honest transfers verify", "statement": "Whenever gen_xfr_note succeeds on records, the produced note passes verify_xfr_note under the same policies.", "quantifier": "all record lists and confidentiality flags, all randomness", "why_tests_cant": "All shapes; many flag combinations.", "anchors": ["api/src/xfr/mod.rs: gen_xfr_note, verify_xfr_note, batch_verify_xfr_notes"]}
{"id": "C18", "title": "Batch verification equals individual verification", "statement": "batch_verify_xfr_notes accepts a list of notes iff each note is accepted on its own (with the underlying batch verifiers being conjunctions), in particular the empty batch passes and one bad note fails the batch.", "quantifier": "all lists of notes", "why_tests_cant": "List length and position of the bad note are unbounded.", "anchors": ["api/src/xfr/mod.rs: batch_verify_xfr_notes, batch_verify_xfr_body_asset_records, batch_verify_xfr_bodies"]}
{"id": "C19", "title": "Multi-signatures need every signer and ignore order", "statement": "verify of a multi-signature accepts iff the number of signatures equals the number of keys and after ordering keys by their encoding each signature verifies under its key; so what sign produces for a set of key pairs verifies for the keys in any order, and removing or altering one signature is rejected.", "quantifier": "all lists of key pairs, all permutations, all messages", "why_tests_cant": "All permutations and list lengths.", "anchors": ["api/src/xfr/sig.rs: XfrMultiSig::sign, XfrMultiSig::verify"]}
{"id": "C20", "title": "Opening a built record recovers amount and type", "statement": "For every amount, asset type, confidentiality flag and receiver key, opening the blind record with the produced owner memo and the receiver key returns the original amount and asset type and the blinding factors that open the commitments.", "quantifier": "all 64-bit amounts, asset types, flags, keys, randomness", "why_tests_cant": "2^64 amounts times all keys.", "anchors": ["api/src/xfr/asset_record.rs: sample_blind_asset_record, build_blind_asset_record, open_blind_asset_record", "api/src/xfr/structs.rs: OwnerMemo"]}
{"id": "C21", "title": "Tracers recover what was transferred", "statement": "Decrypting a tracer memo with the tracer key returns exactly the amount, asset type and attributes that were put into it; extract_asset_type returns the right candidate whenever it is in the candidate list.", "quantifier": "all amounts, types, attribute vectors, candidate lists", "why_tests_cant": "All values and list positions.", "anchors": ["api/src/xfr/asset_tracer.rs: TracerMemo::new, decrypt, verify_amount, extract_asset_type"]}
{"id": "C22", "title": "Amount splitting is lossless", "statement": "u64_to_u32_pair and its recombination low + 2^32*high are inverse bijections, so the two-limb commitment commits to the 64-bit amount.", "quantifier": "all u64", "why_tests_cant": "2^64 inputs.", "anchors": ["algebra/src/utils.rs: u64_to_u32_pair", "api/src/xfr/structs.rs: XfrAmount::from_blinds"]}
{"id": "C23", "title": "Public and secret key encodings round-trip and are canonical", "statement": "Decoding the encoding of any public key, secret key, key pair returns the key; distinct keys have distinct encodings; and an encoding that decodes re-encodes to itself.", "quantifier": "all keys of all three types, all byte strings", "why_tests_cant": "All byte strings of the accepted lengths.", "anchors": ["api/src/xfr/sig.rs: XfrPublicKey::to_bytes/from_bytes, XfrSecretKey, XfrKeyPair"]}
{"id": "C24", "title": "Signature encodings round-trip", "statement": "Decoding the encoding of a signature gives the signature; legacy 64-byte encodings decode as Ed25519; wrong lengths are rejected; key type bytes outside the table are not silently accepted.", "quantifier": "all signatures, all byte strings", "why_tests_cant": "All byte strings.", "anchors": ["api/src/xfr/sig.rs: XfrSignature::to_bytes/from_bytes, KeyType::from_byte, recovery_id_from_u64"]}
{"id": "C25", "title": "Tracing memos are checked against the right records", "statement": "Prover and verifier group records and memos per tracer key identically, so for every record with an asset tracing policy each of its memos is checked against that record's own commitments, and bodies whose memo lists do not match the policies are rejected.", "quantifier": "all lists of records, policies and memos", "why_tests_cant": "All groupings of keys over lists.", "anchors": ["api/src/xfr/proofs.rs: collect_records_and_memos_by_keys, collect_bars_and_memos_by_keys, batch_verify_tracer_tracing_proof"]}
{"id": "C26", "title": "Asset mixing proof conserves every asset type", "statement": "Any satisfying assignment of the mixing circuit has, for each asset type, total input amount equal to total output amount as integers.", "quantifier": "all input/output vector lengths and all (adversarial) assignments of intermediate variables and, for all but few challenges, all shuffles", "why_tests_cant": "Adversarial witnesses are quantified.", "anchors": ["crypto/src/bulletproofs/mix.rs: mix, pad, sort_and_merge, gate_mix_or_not, list_shuffle"]}
{"id": "C27", "title": "Asset mixing is complete for balanced transfers", "statement": "For any balanced inputs and outputs over the same set of types the honest intermediate lists (sorted, merged, padded, shuffled) satisfy all constraints.", "quantifier": "all balanced lists", "why_tests_cant": "All sortings and multiplicities.", "anchors": ["crypto/src/bulletproofs/mix.rs: sort, merge, sort_and_merge, mix_merge_or_not_gadget, mix_shuffle_gadget"]}
{"id": "C28", "title": "64-bit range gadget is sound and complete", "statement": "The bit decomposition gadget is satisfiable for a field element iff the element is the image of an integer below 2^64.", "quantifier": "all field elements, all assignments", "why_tests_cant": "Field is 2^252 large.", "anchors": ["crypto/src/bulletproofs/mix.rs: range_proof_64"]}
{"id": "C29", "title": "Scalar-multiplication gadget proves the right public key", "statement": "Any satisfying assignment of the scalar multiplication circuit has the public key coordinates equal to secret_key * G.", "quantifier": "all adversarial assignments", "why_tests_cant": "Adversarial witnesses.", "anchors": ["crypto/src/bulletproofs/scalar_mul.rs: ScalarMulProof::gadget, point_add_constant, point_select"]}
{"id": "C30", "title": "pow computes exponentiation", "statement": "Scalar::pow on a little-endian limb list returns the base raised to the integer the limbs represent.", "quantifier": "all bases, all limb lists of any length", "why_tests_cant": "Exponent length unbounded.", "anchors": ["algebra/src/traits.rs: Scalar::pow"]}
{"id": "C31", "title": "Signed-digit recoding represents the scalar", "statement": "The radix-2^w digits returned for a scalar sum back to that scalar, each digit lies in [-2^(w-1), 2^(w-1)], and zero gives [0].", "quantifier": "all scalars, all window sizes up to the asserted limit", "why_tests_cant": "2^255 scalars.", "anchors": ["algebra/src/traits.rs: scalar_to_radix_2_power_w"]}
{"id": "C32", "title": "Multi-exponentiation equals the sum of products", "statement": "multi_exp returns the sum of scalar-point products for any number of terms.", "quantifier": "all list lengths, scalars and points", "why_tests_cant": "Length and values unbounded; the window choice depends on the length.", "anchors": ["algebra/src/traits.rs: Group::multi_exp, pippenger"]}
{"id": "C33", "title": "Sigma proofs are complete", "statement": "For every linear relation matrix and secrets satisfying it, sigma_prove's output is accepted by sigma_verify.", "quantifier": "all matrices, all secrets, randomness and challenges", "why_tests_cant": "All dimensions.", "anchors": ["crypto/src/basic/matrix_sigma.rs: sigma_prove, sigma_verify, sigma_verify_scalars"]}
{"id": "C34", "title": "Sigma proofs are special sound", "statement": "From two accepting transcripts with equal commitments and different challenges one can compute secrets satisfying the relation.", "quantifier": "all matrices and transcripts", "why_tests_cant": "Adversarial transcripts.", "anchors": ["crypto/src/basic/matrix_sigma.rs"]}
{"id": "C35", "title": "Chaum-Pedersen equality proofs prove equality", "statement": "A proof that two (or many) Pedersen commitments hide the same value is accepted for honest openings, and two accepting transcripts give openings to a common value; the many-commitment version through a random linear combination accepts only if, save for challenges in a small set, all are equal.", "quantifier": "all commitments, list lengths, transcripts", "why_tests_cant": "Adversarial transcripts and list lengths.", "anchors": ["crypto/src/basic/chaum_pedersen.rs: prove_eq, verify_eq, prove_multiple_eq, verify_multiple_eq, batch_verify"]}
{"id": "C36", "title": "Pedersen-ElGamal equality proofs", "statement": "The proof that an ElGamal ciphertext and a Pedersen commitment carry the same value and randomness is complete and special sound, and its aggregation is the linear combination of the statements.", "quantifier": "all values, keys, transcripts, list lengths", "why_tests_cant": "Adversarial transcripts.", "anchors": ["crypto/src/basic/pedersen_elgamal.rs: pedersen_elgamal_eq_prove, pedersen_elgamal_eq_verify, pedersen_elgamal_aggregate_eq_proof, pedersen_elgamal_batch_verify"]}
{"id": "C37", "title": "ElGamal decrypts what it encrypts", "statement": "elgamal_verify accepts m for an encryption of m under the matching key and no other m' (in a prime-order group); ciphertext bytes round-trip.", "quantifier": "all messages, keys, randomness", "why_tests_cant": "All group elements.", "anchors": ["crypto/src/basic/elgamal.rs: elgamal_encrypt, elgamal_verify, elgamal_partial_decrypt"]}
{"id": "C38", "title": "Hybrid encryption round-trips", "statement": "hybrid_decrypt with the matching secret key inverts hybrid_encrypt for both key kinds and every message length; ciphertext serialisation round-trips.", "quantifier": "all messages and keys", "why_tests_cant": "All lengths.", "anchors": ["crypto/src/basic/hybrid_encryption.rs"]}
{"id": "C39", "title": "Anonymous credential presentations are complete", "statement": "For any issuer, attribute vector and reveal map, a commitment to an issued credential with its opening is accepted by verify_open with exactly the revealed attributes, and by check_comm.", "quantifier": "all attribute vectors, reveal maps, keys, randomness", "why_tests_cant": "All subsets of attributes of any length.", "anchors": ["crypto/src/anon_creds.rs: grant_credential, commit, open_comm, verify_open, check_comm"]}
{"id": "C40", "title": "Anonymous credential presentations need a credential", "statement": "An accepted presentation implies (special soundness) knowledge of a valid signature on the revealed attributes; revealed attributes cannot be changed in an accepted presentation.", "quantifier": "all commitments, proofs, issuer keys", "why_tests_cant": "Adversarial values.", "anchors": ["crypto/src/anon_creds.rs: verify_pok, verify_open"]}
{"id": "C41", "title": "Confidential attribute reveal is consistent", "statement": "The encrypted attributes accepted with a credential presentation decrypt to the attributes in the credential; honest presentations are accepted; vectors of inconsistent length are rejected without panic.", "quantifier": "all attribute vectors and reveal maps, adversarial proofs", "why_tests_cant": "All shapes.", "anchors": ["crypto/src/confidential_anon_creds.rs: confidential_open_comm, confidential_verify_open"]}
{"id": "C42", "title": "Rescue is a permutation and its inverse exponent is right", "statement": "For every key the Rescue block function is a bijection of the state; x -> x^5 and x -> x^ALPHA_INV are inverse on the whole field.", "quantifier": "all field elements / states / keys", "why_tests_cant": "Field has 2^255 elements.", "anchors": ["crypto/src/basic/rescue.rs: rescue_with_round_keys, ALPHA_INV"]}
{"id": "C43", "title": "Anemoi-Jive trace and preprocessed keys agree with evaluation", "statement": "The output of the traced evaluation equals the plain evaluation for every input, and the trace satisfies the round equations.", "quantifier": "all inputs", "why_tests_cant": "All field elements.", "anchors": ["crypto/src/basic/jive.rs: JiveCRH::eval, JiveCRH::eval_with_trace"]}
{"id": "C44", "title": "Gate selectors compute the documented gate", "statement": "The dot product of selectors with eval_selector_multipliers equals eval_gate_func minus public input for all wires; wrong lengths are errors, never panics or values.", "quantifier": "all wire values and selectors", "why_tests_cant": "All field values.", "anchors": ["plonk/src/plonk/constraint_system/turbo.rs: eval_gate_func, eval_selector_multipliers"]}
{"id": "C45", "title": "Arithmetic gadgets are sound and complete", "statement": "For add, sub, mul, equal, select, is_equal, is_not_equal, boolean and constant gates: every assignment satisfying the inserted gates relates outputs to inputs as documented, and the assignment chosen by the builder satisfies them, for any circuit they are inserted into.", "quantifier": "all circuits, all assignments", "why_tests_cant": "Adversarial assignments; arbitrary surrounding circuits.", "anchors": ["plonk/src/plonk/constraint_system/turbo.rs: add, sub, mul, equal, select, is_equal, is_not_equal, insert_boolean_gate, insert_constant_gate"]}
{"id": "C46", "title": "Range check gadget", "statement": "range_check(var, n) is satisfiable iff the variable is below 2^n, and the returned variables are its bits.", "quantifier": "all n >= 2, all circuits and assignments", "why_tests_cant": "All n and values.", "anchors": ["plonk/src/plonk/constraint_system/turbo.rs: range_check"]}
{"id": "C47", "title": "The constants zero and one are enforced", "statement": "In every satisfying assignment of a circuit built by the API the variables returned by zero_var and one_var are 0 and 1, so equal(a,b) forces a = b.", "quantifier": "all circuits and assignments", "why_tests_cant": "Adversarial assignments.", "anchors": ["plonk/src/plonk/constraint_system/turbo.rs: new, zero_var, one_var, equal"]}
{"id": "C48", "title": "Wiring permutation encodes exactly the variable identifications", "statement": "compute_permutation is a permutation of wire positions, and a wire assignment is invariant under it iff it is induced by an assignment of variables.", "quantifier": "all wirings", "why_tests_cant": "All circuit sizes.", "anchors": ["plonk/src/plonk/constraint_system/mod.rs: compute_permutation, extend_witness"]}
{"id": "C49", "title": "Rescue gadget computes Rescue", "statement": "Any satisfying assignment of rescue_hash gives the native Rescue output on the values of the inputs, and the builder's assignment is satisfying.", "quantifier": "all states, circuits, assignments", "why_tests_cant": "All field elements.", "anchors": ["plonk/src/plonk/constraint_system/rescue.rs: rescue_hash"]}
{"id": "C50", "title": "Edwards curve gadgets", "statement": "ecc_add forces the output coordinates to be the twisted Edwards sum whenever the denominators are nonzero, ecc_select forces the selected base multiple, and scalar_mul the sum over the quaternary digits.", "quantifier": "all points and bits", "why_tests_cant": "All field elements.", "anchors": ["plonk/src/plonk/constraint_system/ecc.rs: insert_ecc_add_gate, ecc_select, scalar_mul"]}
{"id": "C51", "title": "Anonymous transfer circuit conserves value with fee", "statement": "With range-checked amounts, any assignment satisfying the asset mixing gates has for each asset type total input = total output (+ fee for the fee type), as integers, and at least one input of the fee type.", "quantifier": "all numbers of inputs/outputs, all assignments", "why_tests_cant": "Adversarial assignments; all list shapes.", "anchors": ["api/src/anon_xfr/abar_to_abar.rs: asset_mixing, match_select"]}
{"id": "C52", "title": "Anonymous balance pre-check", "statement": "check_asset_amount accepts iff for each asset type total input = total output, plus the fee for the fee type.", "quantifier": "all lists and fees", "why_tests_cant": "All lists.", "anchors": ["api/src/anon_xfr/mod.rs: check_asset_amount"]}
{"id": "C53", "title": "In-circuit Merkle root equals the native verification", "statement": "The Merkle path gadget forces the root variable to be what the native verifier folds from the leaf, with directions forced to be exactly one of left/middle/right.", "quantifier": "all paths, assignments", "why_tests_cant": "All path lengths.", "anchors": ["api/src/anon_xfr/mod.rs: add_merkle_path_variables, compute_merkle_root_variables, sort"]}
{"id": "C54", "title": "Owner memo of an anonymous record round-trips and is checked", "statement": "parse_memo accepts the message made by the record builder and returns amount, type and blind; anything it accepts re-commits to the record's commitment.", "quantifier": "all amounts, types, blinds, byte strings", "why_tests_cant": "All byte strings.", "anchors": ["api/src/anon_xfr/mod.rs: parse_memo, decrypt_memo", "api/src/anon_xfr/structs.rs: OpenAnonAssetRecordBuilder::finalize"]}
{"id": "C55", "title": "Nullifiers separate records", "statement": "Under collision freedom of the hash, equal nullifiers imply equal uid, amount, type and keys; one record has one nullifier.", "quantifier": "all uids, amounts, types, keys", "why_tests_cant": "All pairs of records.", "anchors": ["api/src/anon_xfr/mod.rs: nullify, commit", "api/src/anon_xfr/abar_to_abar.rs: AXfrPubInputs::from_witness"]}
{"id": "C56", "title": "Anonymous keys as field scalars", "statement": "The conversion of public and secret keys into BLS scalars is injective; anonymous key pair bytes round-trip.", "quantifier": "all keys", "why_tests_cant": "All keys.", "anchors": ["api/src/anon_xfr/keys.rs: get_public_key_scalars, get_secret_key_scalars, AXfrKeyPair::zei_from_bytes"]}
{"id": "C57", "title": "Polynomial arithmetic is polynomial arithmetic", "statement": "eval, add, sub, mul_scalar, mul_var, from_zeroes and div_rem on coefficient vectors agree with the polynomial ring operations; results are normalised.", "quantifier": "all coefficient vectors", "why_tests_cant": "All degrees.", "anchors": ["plonk/src/poly_commit/field_polynomial.rs: eval, add, sub, mul_scalar, mul_var, from_zeroes, div_rem, trim_coefs"]}
{"id": "C58", "title": "FFT evaluates and inverse FFT interpolates", "statement": "For n of form 2^k or 3*2^k and a primitive n-th root of unity the FFT lists the evaluations at its powers, and ffti inverts it.", "quantifier": "all sizes, all polynomials", "why_tests_cant": "All sizes.", "anchors": ["plonk/src/poly_commit/field_polynomial.rs: recursive_fft, recursive_ifft, fft_with_unity_root, ffti"]}
{"id": "C59", "title": "KZG openings", "statement": "An honest opening proof for p at x verifies for value p(x) and no other value verifies with that proof; batched verification of honest proofs accepts.", "quantifier": "all polynomials, points", "why_tests_cant": "All degrees and points.", "anchors": ["plonk/src/poly_commit/kzg_poly_com.rs: commit, prove, verify, batch_verify_diff_points", "plonk/src/poly_commit/pcs.rs: batch_prove, batch_verify"]}
{"id": "C60", "title": "PLONK helper polynomials", "statement": "Blinding keeps evaluations on the domain, the split quotient recombines to the quotient, the permutation accumulator telescopes, public-input evaluation equals the interpolation, and prover/verifier linearisations agree (sequential and parallel versions are equal).", "quantifier": "all sizes, polynomials, challenges", "why_tests_cant": "All sizes.", "anchors": ["plonk/src/plonk/helpers.rs: hide_polynomial, split_t_and_commit, z_poly, eval_pi_poly, r_poly_or_comm"]}
{"id": "C61", "title": "Simulated field arithmetic", "statement": "Limb decomposition and recomposition of integers are inverse; sub, mul, add on limbs compute the corresponding operation modulo the simulated field; enforce_zero succeeds only if the value is divisible by the modulus.", "quantifier": "all integers in range, all limb vectors", "why_tests_cant": "2^255 values.", "anchors": ["crypto/src/field_simulation.rs: SimFr, SimFrMul", "plonk/src/plonk/constraint_system/field_simulation/fr_mul_var.rs: enforce_zero"]}
{"id": "C62", "title": "Secret key comparison circuit", "statement": "The in-circuit comparison of secret key bits against the group order is satisfiable iff the key is smaller than the order.", "quantifier": "all bit vectors of any length, any modulus, all assignments", "why_tests_cant": "2^256 keys.", "anchors": ["api/src/anon_xfr/address_folding.rs: prove_address_folding_in_cs"]}
{"id": "C63", "title": "Batch verification of anonymous notes covers every note", "statement": "batch_verify_anon_xfr_note accepts only if every note passed in is individually acceptable for its parameter and root.", "quantifier": "all lists", "why_tests_cant": "List lengths.", "anchors": ["api/src/anon_xfr/abar_to_abar.rs: batch_verify_anon_xfr_note"]}
{"id": "C64", "title": "Byte and limb helpers", "statement": "Big/little-endian readers invert the writers, limb packing and byte unpacking are inverse up to zero padding, shifting a byte vector halves the integer it represents, and the power-of-two helper returns the least power of two not below its argument.", "quantifier": "all byte strings", "why_tests_cant": "All byte strings.", "anchors": ["algebra/src/utils.rs: u8_be_slice_to_u64, u64_limbs_from_bytes, u64_lsf_to_bytes, shift_u8_vec, min_greater_equal_power_of_two"]}
{"id": "C65", "title": "Delegated Schnorr", "statement": "Honest delegated Schnorr proofs verify and two accepting transcripts with different challenges open every commitment.", "quantifier": "all committed data, randomness, challenges", "why_tests_cant": "All values.", "anchors": ["crypto/src/delegated_schnorr.rs: prove_delegated_schnorr, verify_delegated_schnorr"]}
{"id": "C66", "title": "Owner memo compatibility decoding", "statement": "The map decoder of owner memos accepts the old and new field names, rejects duplicates across them, defaults the key type to Ed25519 and errors on missing mandatory fields, for every order of fields.", "quantifier": "all field sequences", "why_tests_cant": "All orders and repetitions.", "anchors": ["api/src/xfr/structs.rs: OwnerMemo Deserialize"]}
{"id": "C67", "title": "Anonymous transfer circuit", "statement": "Whatever assignment satisfies the circuit of an anonymous transfer for given public inputs, there are openings of all inputs and outputs under one key such that the nullifiers are those of the inputs, every input has a Merkle path to the public root, the output commitments open to 64-bit amounts, and for every asset type the integers balance with the fee; honest provers always succeed and the circuit does not depend on the witness.", "quantifier": "all numbers of inputs and outputs, path lengths, witnesses, public inputs", "why_tests_cant": "Soundness quantifies over all assignments of a malicious prover; a test only runs honest ones.", "anchors": ["api/src/anon_xfr/abar_to_abar.rs: build_multi_xfr_cs, AXfrPubInputs, add_payers_witnesses, add_payees_witnesses"]}
{"id": "C68", "title": "Anonymous transfers spend stored records, once", "statement": "An anonymous transfer that is valid for the root of the accumulator spends only records stored in the accumulator under their uid, and a stored record has a single nullifier, so that it can be spent once; otherwise the transfer contains an explicit collision of the hash.", "quantifier": "all accumulator histories, transfers, keys", "why_tests_cant": "All histories and all adversarial openings.", "anchors": ["api/src/anon_xfr/abar_to_abar.rs: build_multi_xfr_cs", "api/src/anon_xfr/mod.rs: nullify, commit", "accumulators/src/merkle_tree.rs: PersistentMerkleTree"]}
{"id": "C69", "title": "Commitments are computed by a correct multi-exponentiation", "statement": "For every list of bases on the curve and every list of scalars, the bucket method used to commit to polynomials, with its pairwise affine additions that share one inversion, returns the sum of the bases multiplied by the scalars. For the bases of a commitment key this can fail only for a counted, small number of values of the secret.", "quantifier": "All lists of bases and scalars of any length, all window sizes they lead to, all secrets of a commitment key.", "why_tests_cant": "The formulas are wrong only when equal or opposite points meet as neighbours in a bucket of more than sixteen elements. Random tests never produce this, and no test covers all lengths and all scalars.", "anchors": ["algebra/src/bls12_381.rs: msm_unsafe", "plonk/src/poly_commit/kzg_poly_com.rs: commit"]}
{"id": "C70", "title": "A PLONK proof is accepted only for satisfiable statements", "statement": "The verifier accepts a proof for a verifying key and public inputs only if, up to a small fraction of challenges or a break of the commitment scheme, some assignment satisfies every gate, boolean and copy constraint of the indexed constraint system with those public inputs; proofs of the wrong shape are rejected, not accepted and not a panic.", "quantifier": "All constraint systems, keys, public inputs, transcripts and all proofs an adversary may write.", "why_tests_cant": "Tests verify honest proofs and a few altered ones. They cannot enumerate proofs written by an adversary with knowledge of the challenges, nor proofs with extra elements.", "anchors": ["plonk/src/plonk/verifier.rs: verifier", "plonk/src/plonk/helpers.rs: r_eval_zeta, r_commitment, eval_pi_poly", "plonk/src/poly_commit/kzg_poly_com.rs: batch_verify_diff_points", "plonk/src/plonk/transcript.rs"]}
{"id": "C71", "title": "Honest PLONK proofs are accepted", "statement": "For a key made by the indexer and a witness that satisfies the constraint system, whatever random values the prover draws, the prover returns a proof that the verifier accepts for the public values of the witness. The only other outcome is a panic of the prover when a denominator of the permutation accumulator vanishes, which for given wires and beta happens for at most five values of gamma per row. The quotient polynomial computed from values on a coset is the quotient of the combined constraints by the vanishing polynomial.", "quantifier": "All constraint systems, satisfying witnesses, blinding values, secrets of the commitment key and transcripts.", "why_tests_cant": "Tests prove a few fixed circuits. They cannot cover all circuits, sizes, witnesses and random values, and cannot hit the values of the challenges for which the prover panics.", "anchors": ["plonk/src/plonk/prover.rs: prover_with_lagrange", "plonk/src/plonk/verifier.rs: verifier", "plonk/src/plonk/helpers.rs: t_poly, z_poly, r_poly, split_t_and_commit", "plonk/src/plonk/indexer.rs: indexer_with_lagrange"]}
{"id": "C72", "title": "The address folding circuit ties the key of a transfer to the proof checked outside", "statement": "If the folding circuit is satisfied with the public values that the verifier computes from the state commitment, the challenges and the responses of the delegated Schnorr proof, then the key scalars used by the rest of the circuit are those of two coordinates and of a secret key below the group order, the state commitment opens to these numbers, and the combined response answers the challenge for them. Answering two challenges, each with three values of lambda, ties the Pedersen commitments checked outside the circuit to the same numbers, up to an explicit hash collision. Honest witnesses satisfy the circuit with the verifier's public values, and the circuit is the same for every witness.", "quantifier": "All key variables, systems the circuit is added to, assignments, witnesses, challenges and responses.", "why_tests_cant": "Tests fold a few random keys. They cannot cover assignments chosen by an adversary, who is free to write limbs, carries and bits other than the honest ones, nor all keys.", "anchors": ["api/src/anon_xfr/address_folding.rs: prove_address_folding_in_cs, prepare_verifier_input", "crypto/src/delegated_schnorr.rs: verify_delegated_schnorr", "plonk/src/plonk/constraint_system/field_simulation.rs", "api/src/anon_xfr/keys.rs: get_public_key_scalars, get_secret_key_scalars"]}
{"id": "C73", "title": "A transparent record becomes an anonymous record of the same amount and asset type", "statement": "If the circuit of ar_to_abar is satisfied for a public amount, asset type and commitment, then whoever later opens the commitment opens it to exactly this amount and asset type, unless they exhibit a collision of the hash. Honest conversions satisfy the circuit for the verifier's public values, and the circuit is the same for every record.", "quantifier": "All records, assignments and openings.", "why_tests_cant": "Tests convert a few honest records. They cannot cover assignments chosen by an adversary who wants an anonymous record worth more than the transparent one.", "anchors": ["api/src/anon_xfr/ar_to_abar.rs: build_ar_to_abar_cs, verify_ar_to_abar_body", "api/src/anon_xfr/mod.rs: commit_in_cs"]}
{"id": "C74", "title": "An anonymous record that is paid out to a transparent one is stored, and has that amount and asset type", "statement": "If the circuit of abar_to_ar is satisfied for a public nullifier, root, amount, asset type and folding input, and the root is that of an accumulator after any history, then the record in the witness is one of the stored commitments, of the public amount and asset type, the nullifier is the one of its place, and its key folds to the verifier's input; otherwise the witness contains an explicit collision (or preimage of zero). Honest conversions satisfy the circuit for the verifier's public values; the circuit depends only on the depth of the tree.", "quantifier": "All records, keys, assignments, histories of the accumulator.", "why_tests_cant": "Tests redeem a few honest records. They cannot cover assignments chosen by an adversary who redeems a record that was never stored, or another amount.", "anchors": ["api/src/anon_xfr/abar_to_ar.rs: build_abar_to_ar_cs, verify_abar_to_ar", "api/src/anon_xfr/address_folding.rs", "accumulators/src/merkle_tree.rs"]}
{"id": "C75", "title": "A confidential record becomes an anonymous record of the same amount and asset type", "statement": "If the circuit of bar_to_abar is satisfied for a public commitment and inspection input, then whoever opens the commitment opens it to a 64-bit amount and 240-bit asset type contained in the state commitment, for which the responses of the delegated Schnorr proof answer. Answering two challenges, each with two values of lambda, ties these to the Pedersen commitments of the confidential record: they open to the same amount and asset type, up to an explicit collision. Honest conversions satisfy the circuit for the verifier's public values, and the circuit is the same for every witness.", "quantifier": "All records, proofs, assignments, challenges, responses and openings.", "why_tests_cant": "Tests convert a few honest records. They cannot cover assignments chosen by an adversary, who is free to write limbs, carries and bits other than the honest ones to obtain an anonymous record worth more.", "anchors": ["api/src/anon_xfr/bar_to_abar.rs: build_bar_to_abar_cs, verify_bar_to_abar, verify_inspection", "crypto/src/delegated_schnorr.rs", "plonk/src/plonk/constraint_system/field_simulation.rs"]}
{"id": "C76", "title": "An anonymous record that becomes a confidential one is stored, and the new record has its amount and asset type", "statement": "If the circuit of abar_to_bar is satisfied for a public nullifier, root, inspection input and folding input, and the root is that of an accumulator after any history, then the record in the witness is one of the stored commitments, its amount and asset type are those in the state commitment, for which the responses of the delegated Schnorr proof answer, the nullifier is the one of its place, and its key folds to the verifier's input; otherwise the witness contains an explicit collision (or preimage of zero). Honest conversions satisfy the circuit for the verifier's public values.", "quantifier": "All records, keys, proofs, assignments, histories of the accumulator.", "why_tests_cant": "Tests convert a few honest records. They cannot cover assignments chosen by an adversary.", "anchors": ["api/src/anon_xfr/abar_to_bar.rs: build_abar_to_bar_cs, verify_abar_to_bar", "api/src/anon_xfr/address_folding.rs", "crypto/src/delegated_schnorr.rs"]}
{"id": "C77", "title": "An accepted conversion note preserves amount and asset type", "statement": "Whenever the verifier of one of the four conversions between ordinary and anonymous records accepts a note, the record that appears has the amount and asset type of the record that disappears: the public or committed amount of the ordinary record is the one in the anonymous commitment, the anonymous record that is paid out is one stored in the accumulator, and the record created is one the ledger accepts. Otherwise the note contains a collision of the hash or a relation between the generators.", "quantifier": "All notes, proofs, openings, keys and histories of the accumulator.", "why_tests_cant": "Tests verify honestly made notes and a few altered ones. Whoever can find one accepted note that creates value owns the ledger; tests cannot look for it.", "anchors": ["api/src/anon_xfr/ar_to_abar.rs: verify_ar_to_abar_note", "api/src/anon_xfr/abar_to_ar.rs: verify_abar_to_ar_note", "api/src/anon_xfr/bar_to_abar.rs: verify_bar_to_abar_note, verify_inspection", "api/src/anon_xfr/abar_to_bar.rs: verify_abar_to_bar_note", "crypto/src/delegated_schnorr.rs: verify_delegated_schnorr"]}
{"id": "C78", "title": "Batch verification of conversion notes accepts exactly the batches of acceptable notes", "statement": "A batch of conversion notes is accepted if and only if every note in it is accepted by itself, with the root, key and hash that belong to it.", "quantifier": "All batches of all lengths, and all lists of roots, keys and hashes.", "why_tests_cant": "Tests verify small batches of good notes. They cannot cover all lengths and combinations of good and bad notes.", "anchors": ["api/src/anon_xfr/ar_to_abar.rs: batch_verify_ar_to_abar_note", "api/src/anon_xfr/abar_to_ar.rs: batch_verify_abar_to_ar_note", "api/src/anon_xfr/bar_to_abar.rs: batch_verify_bar_to_abar_note", "api/src/anon_xfr/abar_to_bar.rs: batch_verify_abar_to_bar_note"]}
{"id": "C79", "title": "Malformed conversion notes are refused with an error", "statement": "Verification of a conversion note returns, with an error if the note is not acceptable, for every note that can be received; it never panics.", "quantifier": "All notes, with lists of any length.", "why_tests_cant": "Tests feed well formed notes. The notes come from the network and are chosen by an adversary.", "anchors": ["api/src/anon_xfr/abar_to_ar.rs: verify_abar_to_ar_note", "api/src/anon_xfr/bar_to_abar.rs: verify_bar_to_abar_note", "api/src/anon_xfr/abar_to_bar.rs: verify_abar_to_bar_note", "api/src/anon_xfr/address_folding.rs: verify_address_folding, prepare_verifier_input", "crypto/src/delegated_schnorr.rs: verify_delegated_schnorr"]}
{"id": "C80", "title": "Honest conversion notes are accepted", "statement": "For every record, key and random samples, the functions that make conversion notes return a note (they do not fail or panic) and the verifier accepts it, with keys made once from the default witness.", "quantifier": "All amounts, asset types, blinding factors, keys, positions in the accumulator and random samples.", "why_tests_cant": "Tests convert a few records with a few random samples. They cannot cover all limbs, carries and challenges on which the honest path depends.", "anchors": ["api/src/anon_xfr/ar_to_abar.rs: gen_ar_to_abar_note", "api/src/anon_xfr/abar_to_ar.rs: init_abar_to_ar_note, finish_abar_to_ar_note", "api/src/anon_xfr/bar_to_abar.rs: gen_bar_to_abar_note", "api/src/anon_xfr/abar_to_bar.rs: init_abar_to_bar_note, finish_abar_to_bar_note"]}
{"id": "C81", "title": "Only the owner can convert an ordinary record", "statement": "An accepted note that turns an ordinary record into an anonymous one carries a signature, over all of the note, that is valid for the public key of that record.", "quantifier": "All notes, records and keys.", "why_tests_cant": "Tests sign with the right key. They cannot try every way of combining a record of one owner with the signature of another.", "anchors": ["api/src/anon_xfr/ar_to_abar.rs: verify_ar_to_abar_note", "api/src/anon_xfr/bar_to_abar.rs: verify_bar_to_abar_note"]}
{"id": "C82", "title": "Challenges bind the statement and all earlier messages", "statement": "In every non-interactive proof the challenge is computed from the whole statement and from everything the prover sent before it: two runs with the same input of the hash have the same statement and messages, and different kinds of proofs never share an input of the hash.", "quantifier": "All statements, proofs, lengths of lists and earlier contents of the transcript.", "why_tests_cant": "A missing transcript message changes no honest run: prover and verifier still agree. Only an adversary that chooses values after the challenge sees the difference.", "anchors": ["crypto/src/basic/matrix_sigma.rs: init_sigma, sigma_verify", "crypto/src/basic/chaum_pedersen.rs: chaum_pedersen_verify_multiple_eq", "crypto/src/basic/pedersen_elgamal.rs: pedersen_elgamal_aggregate_eq_verify", "crypto/src/delegated_schnorr.rs: verify_delegated_schnorr", "crypto/src/anon_creds.rs: init_pok_transcript, verify_open, check_comm", "crypto/src/confidential_anon_creds.rs: confidential_verify_pok", "plonk/src/plonk/transcript.rs: transcript_init_plonk", "plonk/src/plonk/verifier.rs: compute_challenges", "plonk/src/poly_commit/pcs.rs: batch_verify"]}
{"id": "C83", "title": "An accepted transfer note spends records of the tree, once each, and conserves value", "statement": "Whatever note the verifier of anonymous transfers accepts for the root of the accumulator: each nullifier belongs to a record stored in the tree whose owner's secret the prover knows, no record is spent twice, the outputs are commitments to 64-bit amounts, for every asset type the amounts of the spent records equal those of the outputs (plus the fee for the fee type), and the note's other contents are bound.", "quantifier": "All notes, parameters, trees, roots, hashes and numbers of inputs and outputs.", "why_tests_cant": "Tests verify notes that the library has made. Nothing about notes made by somebody else follows, and the bugs (unchecked counts, repeated nullifiers, unconstrained constant) do not show in honest notes.", "anchors": ["api/src/anon_xfr/abar_to_abar.rs: verify_anon_xfr_note, init_anon_xfr_note, AXfrPubInputs", "api/src/anon_xfr/structs.rs: AXfrBody, AXfrNote"]}
{"id": "C84", "title": "A fitting transfer can be made and is accepted; an unfitting one is refused when it is initialised", "statement": "init_anon_xfr_note returns an error, and does not panic, unless there are inputs and outputs, the inputs belong to the key and have Merkle proofs for one root, every output has a memo, and the amounts fit with the fee; if they do, finish_anon_xfr_note makes a note with the right nullifiers, commitments, fee and memos, and the verifier accepts it.", "quantifier": "All lists of inputs and outputs, amounts, types, fees, keys, random values.", "why_tests_cant": "The number of combinations of types, amounts and paths is unbounded; tests try a few.", "anchors": ["api/src/anon_xfr/abar_to_abar.rs: init_anon_xfr_note, finish_anon_xfr_note, check_inputs, check_roots", "api/src/anon_xfr/mod.rs: check_asset_amount"]}
{"id": "C85", "title": "Scalars survive the trip through bytes, limbs and integers", "statement": "For each of the five scalar types: to_bytes gives 32 bytes that decode to the same scalar; decoding accepts exactly the strings of at most 32 bytes, never panics, and one scalar has one encoding of full length; the limbs are the 64-bit digits of the value; integers are reduced by the order on the way in and come back below it; equality of scalars is equality of values; the inverse exists exactly for nonzero scalars; the declared orders, generators and quadratic nonresidues are what they are called.", "quantifier": "All scalars, byte strings of any length, integers of any size.", "why_tests_cant": "Round trips tried on random scalars never meet the values near the order, below 2^248 or above the order, where the conversions differ; the orders of generators are not computable by trying.", "anchors": ["algebra/src/bls12_381.rs, jubjub.rs, secp256k1.rs, secq256k1.rs, ristretto.rs: from_bytes, to_bytes, get_little_endian_u64, From<&BigUint>, Into<BigUint>, inv, multiplicative_generator, field_size", "algebra/src/utils.rs: u8_le_slice_to_u64"]}
{"id": "C86", "title": "Points and keys survive the trip through bytes and serde", "statement": "The bytes of a group element decode to it; a string decodes to at most one element, and no two strings decode to the same; decoders return errors and do not panic on malformed strings, in the binary, sequence and text formats alike; the format does not change what is read.", "quantifier": "All groups with correct compression, all byte strings of any length, all formats.", "why_tests_cant": "Malformed strings are an unbounded set; tests decode what was encoded.", "anchors": ["algebra/src/bls12_381.rs, jubjub.rs, secp256k1.rs, secq256k1.rs, ristretto.rs: to_compressed_bytes, from_compressed_bytes", "algebra/src/ristretto.rs: CompressedRistretto", "algebra/src/serialization.rs", "crypto/src/basic/hybrid_encryption.rs: XPublicKey, XSecretKey"]}
{"id": "C87", "title": "An asset type is the same number in every field", "statement": "as_scalar does not panic for any of the five scalar types, gives the same integer, below 2^240, in each of them, and gives two asset types the same scalar only if the first thirty bytes of their SHA-256 agree. (Ordinary transfers use the Ristretto scalar, anonymous ones the BLS12-381 scalar; conversions compare them.)", "quantifier": "All asset types, all hash functions with 32 bytes.", "why_tests_cant": "2^256 asset types and five fields; a test compares a few.", "anchors": ["api/src/xfr/structs.rs: AssetType::as_scalar"]}
{"id": "C88", "title": "Parameter files hold the keys of the circuits that are proved", "statement": "A commitment key survives the trip through its unchecked byte format; malformed bytes are errors. For one to six inputs and outputs, the verifier parameters loaded from the generated transfer files are those that would be computed, reduced to what the verifier needs, and accept the same proofs; so a proof of a true statement made with the prover's parameters is accepted with the loaded ones. More than six inputs or outputs are an error. The circuit that setup builds from default witnesses has, for each of the five kinds of notes, the same proving and verifier keys as the circuit of any actual note of that size.", "quantifier": "All reference strings, all circuits, all numbers of inputs and outputs, all notes and witnesses, all proofs.", "why_tests_cant": "The files are read by nodes that never rebuild the keys. A wrong index, a missing element of a reduced key or a gate that depends on the witness shows up for one size or one witness among unboundedly many.", "anchors": ["api/src/setup.rs: ProverParams, VerifierParams, VerifierParamsSplitCommon, VerifierParamsSplitSpecific", "plonk/src/poly_commit/kzg_poly_com.rs: KZGCommitmentSchemeBLS to_unchecked_bytes, from_unchecked_bytes, shrink_to_verifier_only", "api/src/gen-params.rs", "api/src/parameters.rs"]}
{"id": "C89", "title": "PLONK proofs hide the witness", "statement": "A proof made by the PLONK prover says nothing about the witness beyond the public inputs: for each possible proof, the number of choices of the prover's random values that lead to it is the number of choices of a simulator that knows the toxic waste and the public inputs but no witness, times the size of the field; so two witnesses of the same public inputs lead to each proof equally often, and what the simulator makes is accepted.", "quantifier": "all fields, circuits, satisfied witnesses, setups with a secret outside zero and the evaluation domain, transcripts and oracles; all proofs for whose challenges no denominator of the prover vanishes and the secret is not an evaluation point", "why_tests_cant": "a test sees a few proofs, not the distribution of proofs; that a blinding term was left out or has too low a degree changes no verdict of the verifier", "anchors": ["plonk/src/plonk/prover.rs: prover", "plonk/src/plonk/helpers.rs: hide_polynomial, split_t_and_commit"]}
{"id": "C90", "title": "Sigma proofs show nothing but their statement", "statement": "For every witness of the statement and every proof that the verifier accepts, there is exactly one choice of the prover's blinding scalars that makes this proof (for a fixed hash function giving the challenges). Hence proofs made from different witnesses of one statement are distributed alike: the linear sigma protocol, equality of commitments (one and many), equality of an ElGamal ciphertext with a commitment (one and aggregated), and the delegated Schnorr proof relative to its state commitment.", "quantifier": "all statements, witnesses, accepted proofs and hash functions", "why_tests_cant": "A unit test sees a few proofs; whether the distribution of proofs depends on the secret can not be seen from samples.", "anchors": ["crypto/src/basic/matrix_sigma.rs: sigma_prove, sigma_verify", "crypto/src/basic/chaum_pedersen.rs: chaum_pedersen_prove_eq, chaum_pedersen_prove_multiple_eq", "crypto/src/basic/pedersen_elgamal.rs: pedersen_elgamal_eq_prove, pedersen_elgamal_aggregate_eq_proof", "crypto/src/delegated_schnorr.rs: prove_delegated_schnorr"]}
{"id": "C91", "title": "Presentations of a credential cannot be linked", "statement": "Every accepted presentation of a credential (with one response for each hidden attribute and a first element other than the identity) is made by exactly one choice of the holder's random values from each credential of the issuer that shows the same attributes, whatever its signature, its hidden attributes and the secret key of its holder. The issuer and the verifiers learn only the shown attributes. The same holds of commitments to credentials, about which nothing is shown, and of the proof that goes with confidentially revealed attributes.", "quantifier": "all issuers, credentials, holders, reveal maps, hash functions and accepted presentations", "why_tests_cant": "Linkability is a property of the distribution of presentations over all credentials, including those of other users; no test run shows that two presentations have no link.", "anchors": ["crypto/src/anon_creds.rs: open_comm, commit, prove_pok", "crypto/src/confidential_anon_creds.rs: confidential_open_comm, confidential_prove_pok"]}
{"id": "C92", "title": "The commitments of a confidential record hide amount and asset type", "statement": "For every amount and asset type, and all group elements, there is exactly one choice of the hashes of the shared point (for the lower limb, the upper limb and the type, each with its own label) with which the builder makes a record with these elements as commitments. With the hash as a random oracle the commitments are uniform, whatever they commit to.", "quantifier": "all amounts, types, receivers, randomness and target commitments", "why_tests_cant": "Hiding is about all amounts at once; a test that opens a record or compares two of them can not show it, and would not notice blinding factors that are used twice.", "anchors": ["api/src/xfr/structs.rs: from_blinds, from_blind, calc_amount_blinds, calc_asset_type_blind", "api/src/xfr/asset_record.rs: sample_blind_asset_record"]}
{"id": "C93", "title": "Circuits have the sizes the parameters are made for", "statement": "The number of gates after padding, the number of variables and the positions of the public inputs of every circuit depend only on the numbers of inputs and outputs and the depth of the tree, never on the amounts, types, keys, signatures or paths: for a transfer with n inputs and m outputs against a tree of depth d the size is the least power of two not below 6n^2+6m^2+13nm+(774+156d)n+320m+3061, and one nullifier per input, the root, one commitment per output, the fee and 37 values of the folding instance are public, in this order; at depth 20 and up to six inputs and outputs it is 8192, 16384 or 32768; the four conversions have sizes 512, 2048, 8192 and 8192. Setup builds all of them without panic.", "quantifier": "All witnesses, all numbers of inputs and outputs, all depths.", "why_tests_cant": "Keys are made once from default witnesses and a reference string of fixed length; a gate that is only emitted for some witnesses, or a circuit that crosses a power of two, breaks proving for inputs a test does not try.", "anchors": ["api/src/anon_xfr/abar_to_abar.rs: build_multi_xfr_cs", "api/src/anon_xfr/ar_to_abar.rs: build_ar_to_abar_cs", "api/src/anon_xfr/bar_to_abar.rs: build_bar_to_abar_cs", "api/src/anon_xfr/abar_to_ar.rs: build_abar_to_ar_cs", "api/src/anon_xfr/abar_to_bar.rs: build_abar_to_bar_cs", "api/src/setup.rs: ProverParams"]}
{"id": "C94", "title": "With the parameters as shipped, honest notes are accepted", "statement": "If the embedded reference string is honest and has at least the shipped degree, gen-params makes the files with the verifier's parameters of the four conversions and of all transfers with one to six inputs and outputs. A transfer or a conversion of any kind, for every statement that is true (records of the spender in the tree, equal totals, an opening of the confidential record), made with the prover's parameters of setup, is then accepted with the parameters that the verifier loads from these files. The exception is a challenge gamma in a set of at most five times the size of the circuit that is fixed by the statement and the prover's random values before gamma is drawn; then the prover panics. The roots of unity and the representatives of the cosets of the shipped keys are suitable for every size in use.", "quantifier": "All honest reference strings, true statements, randomness of the prover, hash functions, and numbers of inputs and outputs from one to six.", "why_tests_cant": "Tests make a handful of notes with one set of parameters; whether the chain of setup, files, loading, circuit, prover and verifier fits for every statement and every draw is not settled by those.", "anchors": ["api/src/setup.rs: ProverParams, VerifierParams::load", "api/src/gen-params.rs: gen_transfer_vk", "api/src/anon_xfr/abar_to_abar.rs: finish_anon_xfr_note, verify_anon_xfr_note", "api/src/anon_xfr/ar_to_abar.rs: gen_ar_to_abar_note", "api/src/anon_xfr/bar_to_abar.rs: gen_bar_to_abar_note", "api/src/anon_xfr/abar_to_ar.rs: finish_abar_to_ar_note", "api/src/anon_xfr/abar_to_bar.rs: finish_abar_to_bar_note", "plonk/src/plonk/prover.rs: prover_with_lagrange"]}
{"id": "C95", "title": "With the parameters as shipped, no note creates value", "statement": "Whoever makes a note that the verifier accepts with the parameters it loads from the shipped files, a transfer or a conversion of any kind, knows openings behind it: the new commitments open to amounts and asset types that balance with records in the tree or with the converted record. No efficient strategy, given only public data, makes a note for any other commitments, amounts, nullifiers or roots, except for negligibly many draws of the challenges.", "quantifier": "All honest reference strings, strategies of an adversary (given by the polynomials it commits to), statements, hash functions and trees.", "why_tests_cant": "A test can show that a wrong proof is refused; that every wrong proof is refused, and that none can be computed from public data, is a statement about all adversaries.", "anchors": ["plonk/src/plonk/verifier.rs: verifier", "plonk/src/plonk/transcript.rs", "plonk/src/poly_commit/pcs.rs: batch_verify_diff_points", "api/src/anon_xfr/abar_to_abar.rs: verify_anon_xfr_note", "api/src/anon_xfr/ar_to_abar.rs: verify_ar_to_abar_note", "api/src/anon_xfr/bar_to_abar.rs: verify_bar_to_abar_note", "api/src/anon_xfr/abar_to_ar.rs: verify_abar_to_ar_note", "api/src/anon_xfr/abar_to_bar.rs: verify_abar_to_bar_note"]}
{"id": "C96", "title": "The read-only view shows the last committed tree", "statement": "An ImmutablePersistentMerkleTree opened on the store of a tree reports the last committed version: its root at every depth, the number of its leaves, its leaves by uid, and proofs, for every depth that holds the leaf, that verify accepts for exactly the committed leaves. Additions that are pending in the store do not show.", "quantifier": "All histories of additions, commits, failed commits, crashes and re-openings up to 3^20 leaves, all depths and uids.", "why_tests_cant": "The view mixes reads of the current session with reads of a version, so only histories with pending writes on top of commits tell the two apart; no test of the repository opens it.", "anchors": ["accumulators/src/merkle_tree.rs: ImmutablePersistentMerkleTree"]}
{"id": "C97", "title": "What is signed determines the body", "statement": "The bytes over which the owners of a transfer or of a conversion into anonymous records sign determine the whole body of the note: every amount, type, key, commitment, proof and memo in its place. An accepted note whose signer's key has signed only bodies that its owner approved has an approved body of the same kind; a signature on one kind of note never serves for another.", "quantifier": "All bodies of all sizes up to 2^32 bytes of encoding, for MessagePack (transfers) and bincode (conversions); all notes and all sets of approved bodies.", "why_tests_cant": "Ambiguity of an encoding is a collision between two bodies of any shape; tests serialize and read back single bodies and never compare encodings of different types.", "anchors": ["api/src/xfr/mod.rs: verify_xfr_note, XfrBody", "api/src/xfr/structs.rs: derived Serialize", "api/src/anon_xfr/ar_to_abar.rs: verify_ar_to_abar_note", "api/src/anon_xfr/bar_to_abar.rs: verify_bar_to_abar_note"]}
{"id": "C98", "title": "Notes survive the trip through bytes", "statement": "A note that is written with bincode or as MessagePack is read back as the same note, whatever follows it in the stream; and bytes made by someone else are refused with an error, never with a panic.", "quantifier": "All transfer notes, the four kinds of conversion notes and all anonymous transfer notes, of any number of records, proofs and memos up to 2^32 bytes of encoding; both formats; any bytes after the note.", "why_tests_cant": "The tests serialize single notes with one format (MessagePack or JSON); that a format cannot read what it wrote depends on which of the optional parts are present.", "anchors": ["api/src/xfr/structs.rs: impl Deserialize for OwnerMemo, visit_seq, CompatibleKeyType", "api/src/xfr/structs.rs: XfrNote, XfrBody", "api/src/anon_xfr/abar_to_bar.rs: AbarToBarNote", "api/src/anon_xfr/abar_to_abar.rs: AXfrNote", "api/src/serialization.rs"]}
{"id": "C99", "title": "A balanced transfer can be made", "statement": "Transfer generation succeeds exactly when there is an input, the keys are those of the owners of the inputs in order, every asset type is balanced and these limits are met: with one asset type and a hidden amount, at most 63 outputs and less than 2^64 units; with one hidden asset type, at least two records; with several asset types of which something is hidden, every type on both sides. The note made is accepted.", "quantifier": "All lists of well-formed records with tracing memos that match their policies, of any length, amounts, types and confidentiality flags; all keys.", "why_tests_cant": "The tests make transfers of a few records with small amounts; the limits sit at 64 outputs, at sums of 2^64 and at records of amount zero.", "anchors": ["api/src/xfr/mod.rs: gen_xfr_note, gen_xfr_body, gen_xfr_proofs_single_asset, gen_xfr_proofs_multi_asset", "api/src/xfr/proofs.rs: gen_range_proof, asset_proof", "api/src/xfr/asset_mixer.rs: prove_asset_mixing", "crypto/src/basic/chaum_pedersen.rs: chaum_pedersen_prove_multiple_eq"]}
{"id": "C100", "title": "The anonymous pool pays out no more than was put in", "statement": "A ledger that accepts deposits, anonymous transfers and withdrawals that the verifiers accept, against roots its accumulator has had and with nullifiers that are new, has for every asset type paid out, in withdrawals and fees, at most what was deposited; the difference is in the records whose nullifier is not published.", "quantifier": "All finite sequences of accepted deposits, transfers and withdrawals, of any number and with any numbers of inputs and outputs that have parameters, against any earlier root, for all asset types.", "why_tests_cant": "The tests run single notes through the verifier. Conservation over a history joins the circuits, the commitments, the tree, the nullifiers and the rules of the ledger, and has to hold for notes no honest prover would make.", "anchors": ["api/src/anon_xfr/ar_to_abar.rs: verify_ar_to_abar_note", "api/src/anon_xfr/abar_to_abar.rs: verify_anon_xfr_note", "api/src/anon_xfr/abar_to_ar.rs: verify_abar_to_ar_note", "api/src/anon_xfr/mod.rs: commit, nullify", "accumulators/src/merkle_tree.rs: PersistentMerkleTree"]}
{"id": "C101", "title": "The parameter files can be loaded", "statement": "The files that gen-params writes are read by the loader as exactly the verifier parameters that setup made, cut down for verifiers, whatever follows in the file and without the reference string. A file that was cut off anywhere gives an error.", "quantifier": "All honest reference strings of at least the shipped degree, all one to six inputs and outputs, the four conversions, all bytes appended, all places at which a file can be cut.", "why_tests_cant": "The test reads back parameters for one size and one conversion. A layout that is ambiguous, or lengths that do not fit, or a reader that stops early, show up only for other sizes or damaged files.", "anchors": ["api/src/setup.rs: VerifierParams::load, abar_to_ar_params, abar_to_bar_params, ar_to_abar_params, bar_to_abar_params", "api/src/gen-params.rs", "plonk/src/plonk/indexer.rs: PlonkVK derived serde", "plonk/src/poly_commit/kzg_poly_com.rs: derived serde", "plonk/src/plonk/constraint_system/turbo.rs: derived serde", "algebra/src/serialization.rs: zei_obj_serde"]}
{"id": "C102", "title": "The shipped keys belong to the circuits of the code", "statement": "Every verifier key that is shipped in api/parameters, for the four conversions and for transfers of one to six inputs and outputs, is the key that setup makes from the circuit in the source: number of variables, size, root of unity, coset representatives, positions of the public inputs, Lagrange constants and commitments.", "quantifier": "All 40 shipped keys; all honest reference strings for what does not depend on the reference string.", "why_tests_cant": "The test suite makes fresh parameters or loads the shipped ones, but never compares the two; keys that were left behind by a change of a circuit show only when a proof of that size is verified.", "anchors": ["api/parameters/*-vk.bin, transfer-vk-*.bin", "api/src/parameters.rs", "api/src/setup.rs: VerifierParams::load and siblings", "api/src/gen-params.rs"]}
{"id": "C103", "title": "Confidential records enter and leave the anonymous pool without gain", "statement": "A ledger that accepts, next to the transactions of C100, conversions from and to confidential records has for every asset type paid out, in withdrawals and fees, at most what was deposited, where a confidential record counts with the amount and type to which it is opened, whatever the halves of the amount are; a record that goes out and comes in again counts the same both times.", "quantifier": "All finite sequences of accepted transactions of the five kinds, against any earlier root, for all asset types, all openings of the confidential records, and all provers that answer when rewound.", "why_tests_cant": "Amounts of confidential records are nowhere in the notes, so a test cannot even state the sum for a note that it did not make. The property joins two proof systems over two curves with the commitments, the tree, the nullifiers and the ledger.", "anchors": ["api/src/anon_xfr/bar_to_abar.rs: verify_bar_to_abar_note", "api/src/anon_xfr/abar_to_bar.rs: verify_abar_to_bar_note", "api/src/anon_xfr/abar_to_abar.rs: verify_anon_xfr_note", "api/src/anon_xfr/ar_to_abar.rs: verify_ar_to_abar_note", "api/src/anon_xfr/abar_to_ar.rs: verify_abar_to_ar_note", "crypto/src/delegated_schnorr.rs: verify_delegated_schnorr"]}
{"id": "C104", "title": "The supply of every asset in the ordinary ledger never grows", "statement": "Over any history of accepted transfers of all five kinds of proof, in which each note consumes records of the ledger and adds its outputs, every record of the ledger holds a 64-bit amount of one asset type and the ledger never holds more units of any type than it did at the beginning; it holds equally many when no transfer of a kind that can burn occurs.", "quantifier": "All finite sequences of accepted notes, alone or in batches, public, with hidden amounts, hidden types or both, or mixing several hidden types, over all records and all numbers of inputs and outputs.", "why_tests_cant": "Amounts and types of hidden records are nowhere in the notes, and a forged note needs a prover that the library does not contain: tests only see notes made by the library's own generators, which refuse unbalanced transfers.", "anchors": ["api/src/xfr/mod.rs: batch_verify_xfr_notes, batch_verify_xfr_body_asset_records, verify_plain_asset_mix, batch_verify_asset_mix", "api/src/xfr/proofs.rs: batch_verify_confidential_amount, batch_verify_confidential_asset, extract_value_commitments", "api/src/xfr/asset_mixer.rs: batch_verify_asset_mixing", "crypto/src/bulletproofs/mix.rs: mix, sort_and_merge, pad"]}
{"id": "C105", "title": "No units appear in the whole system of ordinary records and anonymous pool", "statement": "In a ledger that takes transfers of ordinary records (public or hidden), conversions of ordinary records into anonymous ones and back (public or hidden), and anonymous transfers with their fees, in any order, the units of every asset type held by ordinary records, by unspent anonymous records, and paid as fees never exceed the units the ordinary records held at the beginning; every ordinary record and every spendable anonymous record holds a 64-bit amount.", "quantifier": "All finite sequences of accepted transactions of these kinds in any interleaving, all initial ledgers, all asset types.", "why_tests_cant": "The statement joins proofs over different curves and fields, written by different modules: a unit that leaves one half of the system must arrive in the other under the same type and amount, for every interleaving. Tests convert single records made by the library's own generators.", "anchors": ["api/src/xfr/mod.rs: batch_verify_xfr_notes", "api/src/anon_xfr/bar_to_abar.rs: verify_bar_to_abar_note", "api/src/anon_xfr/abar_to_bar.rs: verify_abar_to_bar_note", "api/src/anon_xfr/ar_to_abar.rs: verify_ar_to_abar_note", "api/src/anon_xfr/abar_to_ar.rs: verify_abar_to_ar_note", "api/src/anon_xfr/abar_to_abar.rs: verify_anon_xfr_note", "api/src/xfr/structs.rs: AssetType::as_scalar"]}
{"id": "C106", "title": "Notes survive the trip through JSON, also notes written years ago", "statement": "A note in JSON is read back as the same note, whatever the spaces between the tokens, the order of the members of its objects, and whether its owner memos use the old names of the fields (blind_share, lock, no type of key) or the new ones; a document that gives a field twice is refused; a document made by someone else is refused with an error, never with a panic.", "quantifier": "All transfer notes, the four kinds of conversion notes and all anonymous transfer notes, with any number of records, proofs and memos; all texts of the note; all layouts of the memos.", "why_tests_cant": "The test of compatibility reads one document; another order of members or another mix of old and new names takes other paths of the hand-written reader.", "anchors": ["api/src/xfr/structs.rs: impl Deserialize for OwnerMemo, visit_map, Field", "api/src/xfr/structs.rs: XfrNote, XfrBody, XfrAmount, AssetTypeAndAmountProof", "algebra/src/serialization.rs: zei_obj_serde", "algebra/src/lib.rs: serialize_deserialize", "api/tests/smoke_xfr_compatibility.rs", "crypto/src/basic/hybrid_encryption.rs: ZeiHybridCiphertext"]}
{"id": "C107", "title": "Keys, opened records and credentials survive the wallet's file, and what belongs together stays together", "statement": "Key pairs of both kinds of accounts, the keys of a tracer, tracing policies, opened records with their memos and policies, templates, credentials with the keys of issuer and commitment, and anonymous records with memo and place in the tree are read back from JSON as they were, whatever the spaces and the order of the members; members that were left out because empty come back empty; a pair of keys that is read belongs together, and a record that is read has the amount that its opening says.", "quantifier": "All keys, policies, records, credentials and places in trees of any depth; all texts of the document.", "why_tests_cant": "Tests write and read one key pair in the order of the code; a wallet written by another program, or edited, takes other paths, and nobody tests pairs that do not belong together.", "anchors": ["api/src/serialization.rs: impl Serialize/Deserialize for XfrPublicKey, XfrSecretKey", "api/src/xfr/sig.rs: XfrKeyPair", "api/src/xfr/structs.rs: AssetTracerKeyPair, TracingPolicy, OpenAssetRecord, AssetRecord, AssetRecordTemplate", "api/src/anon_xfr/keys.rs: AXfrKeyPair", "api/src/anon_xfr/structs.rs: OpenAnonAssetRecord, MTLeafInfo, MTPath", "api/src/anon_creds.rs: Credential, CredentialCommKey"]}
{"id": "C108", "title": "What is received in the pool can be spent", "statement": "A record that an honest sender made for a key can be recovered by the owner at any later time from the secret key and what the ledger publishes (commitment, memo, tree), with a place under the current root, whatever was stored in between; for every balanced payment from any number of recovered records, and for every payment out, the owner then makes a note that is accepted under that root, and each output made by the builder is addressed to its owner in the same sense, so that value never gets stuck between the notes of the system.", "quantifier": "All keys, amounts, types, random choices, numbers of inputs and outputs, histories of the tree up to its capacity, and ways from note to note.", "why_tests_cant": "Tests follow one record through one transfer with objects that stay in memory; whether the memo, the commitment and the path of any record at any time suffice for the next note, again and again, is a statement about all histories.", "anchors": ["api/src/anon_xfr/structs.rs: OpenAnonAssetRecordBuilder::from_abar, mt_leaf_info, finalize, build", "api/src/anon_xfr/abar_to_abar.rs: init_anon_xfr_note, finish_anon_xfr_note, verify_anon_xfr_note", "api/src/anon_xfr/ar_to_abar.rs, bar_to_abar.rs, abar_to_ar.rs, abar_to_bar.rs: gen and verify", "api/tests/smoke_axfr.rs: build_mt_leaf_info_from_proof", "accumulators/src/merkle_tree.rs: generate_proof"]}
{"id": "C109", "title": "What is received in ordinary records can be spent, with everything the policies ask for", "statement": "A record that an honest sender built for a key is opened by the owner from what the note publishes; from the opened records and from templates the constructors make the inputs and outputs, with a memo and a proof for each tracing policy; whenever amounts balance and the limits of the provers are kept the note is made and is accepted by a verifier that holds the policies of the assets, every tracer reads from it exactly the amounts, types and attributes its policies grant, and every output is again such a record of its owner.", "quantifier": "All keys, amounts, types, flags, policies, credentials, random choices, numbers of inputs and outputs.", "why_tests_cant": "Tests put a few records with one or two policies through one note; that every combination of constructors, policies and flags yields something the next owner, the tracers and the verifier can all use is a statement about all of them, and one constructor that forgets a check does not show in tests that use matching credentials.", "anchors": ["api/src/xfr/asset_record.rs: AssetRecord::from_open_asset_record_no_asset_tracing, from_open_asset_record_with_asset_tracing_but_no_identity, from_open_asset_record_with_tracing, from_template_no_identity_tracing, from_template_with_identity_tracing", "api/src/xfr/asset_record.rs: sample_blind_asset_record, build_record_input_from_template, open_blind_asset_record", "api/src/xfr/mod.rs: gen_xfr_note, verify_xfr_note", "api/src/xfr/asset_tracer.rs: TracerMemo::new, decrypt"]}
{"id": "C110", "title": "Identity tracing from the issuer to the tracer", "statement": "Who holds a credential granted by the issuer that a policy names makes inputs and outputs under the policy, the note is accepted, and the tracer reads from it exactly the attributes that the issuer certified, at the places the policy reveals; and whoever makes a note that is accepted under the policy holds a signature of that issuer on a list of attributes, of which the tracer, if it reads the memo at all, reads those at the revealed places.", "quantifier": "All issuer and user keys, attributes, reveal maps, tracer keys, random choices, records and policies, and all provers.", "why_tests_cant": "Tests grant one credential with a few attributes and trace one payment; that the tracer cannot be shown attributes the issuer never certified is a statement about every program that makes notes, and a commitment that binds nothing passes every test made with honest wallets.", "anchors": ["api/src/xfr/asset_record.rs: AssetRecord::from_open_asset_record_with_tracing, from_template_with_identity_tracing", "api/src/anon_creds.rs: ac_confidential_open_commitment, ac_confidential_verify", "crypto/src/confidential_anon_creds.rs: confidential_open_comm, confidential_verify_open", "api/src/xfr/proofs.rs: verify_identity_proofs", "api/src/xfr/structs.rs: TracerMemo::decrypt"]}
{"id": "C111", "title": "What is received in the pool can be spent with the parameters that are shipped", "statement": "With verifier keys loaded from the files that gen-params writes, prover keys from the same setup and the PLONK prover and verifier of the crate: a deposit made for a key is accepted and puts a record into the pool that the owner finds with the secret key and the published memo; whatever else happened to the tree, the owner pays it out to a transparent or a confidential record or transfers up to six of them together, the note is accepted, and the records of a transfer are again such records of their owners. The only exception is a challenge in a fixed set of at most five times the number of rows less one.", "quantifier": "All keys, amounts, types, blinding factors, histories of the tree with up to 3^20 records, shapes up to 6 x 6, random choices, challenge functions.", "why_tests_cant": "Proving one note takes seconds, so tests make a handful of notes of a few shapes, each starting from fresh records; that what one note leaves can always be spent by the next, for every history and shape and with the loaded keys, needs the circuits, the prover, the verifier, the tree and the memos in one statement.", "anchors": ["api/src/anon_xfr/abar_to_abar.rs: init_anon_xfr_note, finish_anon_xfr_note, verify_anon_xfr_note", "api/src/anon_xfr/ar_to_abar.rs, bar_to_abar.rs, abar_to_ar.rs, abar_to_bar.rs: gen and verify", "api/src/anon_xfr/structs.rs: OpenAnonAssetRecordBuilder::from_abar", "plonk/src/plonk/prover.rs: prover_with_lagrange; verifier.rs: verifier", "api/src/setup.rs: ProverParams, VerifierParams", "api/src/gen-params.rs"]}
{"id": "C112", "title": "Explorers and the node cannot be made to disagree about a note in JSON", "statement": "A program that reads the JSON of a note by the names of the members (body.inputs[i].amount.NonConfidential, body.fee, body.merkle_root and so on) finds in any document that the node accepts as a note exactly what the node takes from it, whoever made the document and whatever other members it has; in documents that the node writes every amount, asset type, key, commitment, nullifier, root, version, fee, memo and signature stands under its name.", "quantifier": "All texts of JSON that are accepted as a note of one of the six kinds, all notes, all positions.", "why_tests_cant": "Two readers agree on the documents a test suite has; a hostile document with duplicated, foreign or reordered members, structs as arrays or unusual numbers is not among them, and the statement is about every document.", "anchors": ["api/src/xfr/structs.rs: XfrNote, XfrBody, BlindAssetRecord, XfrAmount, XfrAssetType", "api/src/anon_xfr/structs.rs: AnonAssetRecord, AxfrOwnerMemo", "api/src/anon_xfr/abar_to_abar.rs: AXfrNote, AXfrBody", "api/src/anon_xfr/ar_to_abar.rs, bar_to_abar.rs, abar_to_ar.rs, abar_to_bar.rs: notes and bodies", "algebra/src/serialization.rs: zei_obj_serde"]}
{"id": "C113", "title": "Wallets, tracers and issuers in other languages find keys, credentials, policies and opened records under their names", "statement": "A program that reads the JSON of a key pair, tracer keys, issuer key, credential, policy, opened record, record with its policies, template or opened anonymous record by the names of the members finds in any document that the library accepts what the library takes from it, and in any document that the library writes every member is there with the exact text: scalars, points and keys in base64, amounts of ordinary records as decimal text and of anonymous records as numbers, asset types as 32 numbers.", "quantifier": "All texts of JSON that are accepted, all objects, lists and paths of any length.", "why_tests_cant": "A test compares documents that the same library wrote; whether foreign documents with further or reordered members are understood alike by both sides is a statement about every document.", "anchors": ["api/src/xfr/sig.rs: XfrKeyPair", "api/src/anon_xfr/keys.rs: AXfrKeyPair", "api/src/xfr/structs.rs: AssetTracerKeyPair, TracingPolicy, OpenAssetRecord, AssetRecord, AssetRecordTemplate", "api/src/xfr/mod.rs: XfrNotePolicies", "crypto/src/anon_creds.rs: CredentialIssuerPK, CredentialIssuerSK, Credential, CredentialCommRandomizer", "api/src/anon_xfr/structs.rs: OpenAnonAssetRecord, MTLeafInfo, MTPath, MTNode", "algebra/src/serialization.rs: zei_obj_serde"]}
{"id": "C114", "title": "A text is accepted as JSON exactly if it is JSON, and it has one meaning", "statement": "The texts from which the library reads notes and keys are exactly the documents of the grammar of RFC 8259 (without fractions, signs and pairs of surrogates, which no part of a note takes), nested at most 127 levels deep; each has one meaning, how it is spelled makes no difference for what is read, a note that another program wrote with its own spelling, spaces and order of members is the same note, every other text is refused with an error, and no spelling smuggles a field in twice.", "quantifier": "All texts, all trees, all notes with any number of records, proofs and memos, all spellings.", "why_tests_cant": "A test reads the texts that the same library wrote; which of all texts are accepted, and with what meaning, is a statement about every text.", "anchors": ["api/src/xfr/structs.rs: XfrNote", "api/src/anon_xfr/abar_to_abar.rs: AXfrNote", "api/src/anon_xfr/ar_to_abar.rs", "api/src/anon_xfr/bar_to_abar.rs", "api/src/anon_xfr/abar_to_ar.rs", "api/src/anon_xfr/abar_to_bar.rs", "algebra/src/serialization.rs: zei_obj_serde"]}
{"id": "C115", "title": "Only one byte string is read as a given note", "statement": "Two byte strings that are read as the same note are the same string, up to what follows the note: nobody who relays a note can change its bytes, and hence an identifier made from them, without changing the note.", "quantifier": "All notes with any number of records, proofs and memos, all byte strings, whatever follows.", "why_tests_cant": "A test reads back what was written; that no other string is read as the same note is a statement about every string.", "anchors": ["api/src/anon_xfr/abar_to_abar.rs: AXfrNote", "api/src/anon_xfr/ar_to_abar.rs: ArToAbarNote", "api/src/anon_xfr/bar_to_abar.rs: BarToAbarNote", "api/src/xfr/structs.rs: XfrAmount", "algebra/src/serialization.rs: zei_obj_serde", "algebra/src/bls12_381.rs: from_bytes"]}
