{
 "claims": [
  {
   "property": "C01",
   "status": "proved",
   "theorems": [
    "Verif.Merkle.C01_uids_consecutive",
    "Verif.Merkle.C01_uid_counts_additions"
   ],
   "note": "up to capacity (3^20 additions); beyond it see C09"
  },
  {
   "property": "C02",
   "status": "proved",
   "theorems": [
    "Verif.Merkle.C02_membership_proofs"
   ],
   "note": ""
  },
  {
   "property": "C03",
   "status": "proved",
   "theorems": [
    "Verif.Merkle.C03_root_is_tree_root",
    "Verif.Merkle.C03_root_depends_on_leaves_only"
   ],
   "note": ""
  },
  {
   "property": "C04",
   "status": "proved",
   "theorems": [
    "Verif.Merkle.C04_proof_binding",
    "Verif.Merkle.C04_accepted_proof_is_for_stored_leaf",
    "Verif.Merkle.C04_accepted_proof_position"
   ],
   "note": "binding up to an explicitly computed collision of the hash"
  },
  {
   "property": "C05",
   "status": "proved",
   "theorems": [
    "Verif.Merkle.C05_versions_immutable",
    "Verif.Merkle.C05_version_root"
   ],
   "note": ""
  },
  {
   "property": "C06",
   "status": "proved",
   "theorems": [
    "Verif.Merkle.C06_crash_recovers_commit",
    "Verif.Merkle.C06_reopen_is_identity"
   ],
   "note": "the database commit itself is assumed atomic"
  },
  {
   "property": "C07",
   "status": "partial",
   "theorems": [
    "Verif.Merkle.C07_depth_proofs_partial",
    "Verif.Merkle.C07_oversized_id_accepted",
    "Verif.Merkle.C07_oversized_proof_does_not_verify"
   ],
   "note": "violated by the code for id = 3^depth (off by one), proved otherwise"
  },
  {
   "property": "C08",
   "status": "partial",
   "theorems": [
    "Verif.Merkle.C08_get_leaf_by_key_partial",
    "Verif.Merkle.C08_get_leaf_returns_root"
   ],
   "note": "violated: get_leaf uses the uid as an internal key"
  },
  {
   "property": "C09",
   "status": "partial",
   "theorems": [
    "Verif.Merkle.C09_below_capacity_partial",
    "Verif.Merkle.C09_full_tree_accepts_addition"
   ],
   "note": "violated: no capacity check"
  },
  {
   "property": "C10",
   "status": "partial",
   "theorems": [
    "Verif.Merkle.C10_failed_commit_reopen_partial",
    "Verif.Merkle.C10_failed_commit_keeps_count"
   ],
   "note": "violated: the in-memory counter survives a refused commit"
  },
  {
   "property": "C100",
   "status": "partial",
   "theorems": [
    "Verif.Anon.C100_pool_accounts_partial",
    "Verif.Anon.C100_pool_conserves_partial",
    "Verif.Anon.C100_inflation_violated",
    "Verif.Setup.C100_paid_from_nothing_violated"
   ],
   "note": "the accounts are exact for every run, up to evidence against the hash computed from the run. Missing, because the code lacks it: the transfer circuit does not fix its constant one (C100_inflation_violated: a deposit of 1 and a withdrawal of 1000), and the proof system is assumed to have an extractor, which the one of the code has not (C100_paid_from_nothing_violated: without any deposit the ledger pays out any list of records). One secret key per public key among the spends is a hypothesis. Confidential deposits and withdrawals: C103"
  },
  {
   "property": "C101",
   "status": "partial",
   "theorems": [
    "Verif.Setup.C101_params_file",
    "Verif.Setup.C101_lawful",
    "Verif.Setup.C101_transfer_files",
    "Verif.Setup.C101_conversion_files",
    "Verif.Setup.C101_cut_table_violated"
   ],
   "note": "bincode 1.3 is modelled from its documented behaviour; honest reference string and round trips of points and scalars assumed; a cut table of transfer keys panics instead of giving an error (C101_cut_table_violated)"
  },
  {
   "property": "C102",
   "status": "partial",
   "theorems": [
    "Verif.Setup.C102_conversions_partial",
    "Verif.Setup.C102_transfers_partial",
    "Verif.Setup.C102_same_reference"
   ],
   "note": "the kernel reads the shipped files with the reader of C101 and compares all that is not a point with what setup makes from the circuits for any honest reference string; that all keys hold the same points of the reference string is proved; the commitments to selectors and permutation are missing (they are compared outside Lean, check/README.md)"
  },
  {
   "property": "C103",
   "status": "partial",
   "theorems": [
    "Verif.Anon.C103_pool_accounts_partial",
    "Verif.Anon.C103_pool_conserves_partial"
   ],
   "note": "holds for every run up to evidence computed from the run and the rewound provers: a collision of the hash, or a relation between the two generators of the Pedersen commitments. The four conversions and the transfer are all steps. Special soundness of the delegated Schnorr proof enters as rewound provers (two first and two second challenges, C77). Missing for the same reasons as in C100: constant one of the transfer circuit, extractor for PLONK, one secret key per public key"
  },
  {
   "property": "C104",
   "status": "partial",
   "theorems": [
    "Verif.Xfr.C104_supply_partial",
    "Verif.Xfr.Ledger.run",
    "Verif.Xfr.C104_money_from_nothing_violated",
    "Verif.Xfr.C104_supply_violated"
   ],
   "note": "violated by mixing transfers: with one input, or more outputs than inputs, or one output, the constraints of mix.rs do not bind inputs to outputs (C26), so a note that consumes one unit of one type and creates a billion of another passes full verification. Proved for all histories in which mixing transfers have at least two outputs and no more outputs than inputs, up to evidence computed from the run: a relation between the Pedersen generators, or challenges that met one of few values. Knowledge soundness of the three proof systems enters as extractors"
  },
  {
   "property": "C105",
   "status": "partial",
   "theorems": [
    "Verif.Anon.C105_system_supply_partial"
   ],
   "note": "C103 and C104 joined: any interleaving of ordinary transfers and of transactions of the pool; at the border a record counts on both sides with the same amount and type, or there is a relation between the Pedersen generators. Partial for the reasons of C104 (shapes of mixing transfers, violated otherwise) and of C100 (the constant of the transfer circuit, one secret key per public key among the spends, violated otherwise)"
  },
  {
   "property": "C106",
   "status": "partial",
   "theorems": [
    "Verif.Serde.C106_transfer",
    "Verif.Serde.C106_transfer_to_string",
    "Verif.Serde.C106_ar_to_abar",
    "Verif.Serde.C106_bar_to_abar",
    "Verif.Serde.C106_abar_to_ar",
    "Verif.Serde.C106_abar_to_bar",
    "Verif.Serde.C106_anonymous_transfer",
    "Verif.Serde.C106_twice_refused",
    "Verif.Serde.C106_memo_forms",
    "Verif.Serde.C106_hostile_violated"
   ],
   "note": "serde_json and base64 are modelled from their documented behaviour; round trips of points, scalars and proofs through bytes assumed. The round trips and the refusal of double fields are proved for all texts and layouts; false as stated because a blind share under its old name that does not have 32 bytes panics (C106_hostile_violated). The document of api/tests/smoke_xfr_compatibility.rs is read by the model as it stands"
  },
  {
   "property": "C107",
   "status": "partial",
   "theorems": [
    "Verif.Serde.C107_key_pair",
    "Verif.Serde.C107_key_pair_violated",
    "Verif.Serde.C107_anon_key_pair",
    "Verif.Serde.C107_anon_key_pair_violated",
    "Verif.Serde.C107_tracer_keys",
    "Verif.Serde.C107_tracer_keys_violated",
    "Verif.Serde.C107_issuer_secret",
    "Verif.Serde.C107_credential",
    "Verif.Serde.C107_commitment_key",
    "Verif.Serde.C107_policies",
    "Verif.Serde.C107_open_record",
    "Verif.Serde.C107_asset_record",
    "Verif.Serde.C107_template",
    "Verif.Serde.C107_open_record_violated",
    "Verif.Serde.C107_anon_record",
    "Verif.Serde.C107_anon_record_bare"
   ],
   "note": "the round trips are proved for all objects and all texts, with those of points and scalars through bytes assumed. False as stated: derived readers compare nothing, so a pair of keys that do not belong together and a record that its opening does not match are read (the four theorems with suffix _violated)"
  },
  {
   "property": "C108",
   "status": "proved",
   "theorems": [
    "Verif.Anon.C108_received",
    "Verif.Anon.C108_addressed_later",
    "Verif.Anon.C108_all_received",
    "Verif.Anon.C108_transfer",
    "Verif.Anon.C108_deposit",
    "Verif.Anon.C108_deposit_confidential",
    "Verif.Anon.C108_pay_out",
    "Verif.Anon.C108_pay_out_confidential"
   ],
   "note": "for records made by the builder (what a dishonest sender writes in a memo is not bound, C83); the conditions on the asset types of a payment are those of C84"
  },
  {
   "property": "C109",
   "status": "partial",
   "theorems": [
    "Verif.Xfr.C109_received",
    "Verif.Xfr.C109_input",
    "Verif.Xfr.C109_output",
    "Verif.Xfr.C109_traced",
    "Verif.Xfr.C109_made",
    "Verif.Xfr.C109_spend",
    "Verif.Xfr.C109_foreign_issuer_violated"
   ],
   "note": "from_template_with_identity_tracing does not compare the issuer of the credential with that of the policy: the note is made and then refused"
  },
  {
   "property": "C11",
   "status": "proved",
   "theorems": [
    "Verif.Merkle.C11_path_keys",
    "Verif.Merkle.C11_store_keys"
   ],
   "note": ""
  },
  {
   "property": "C110",
   "status": "partial",
   "theorems": [
    "Verif.Xfr.C110_credential_partial",
    "Verif.Xfr.C110_payer_traced_partial",
    "Verif.Xfr.C110_payee_traced_partial",
    "Verif.Xfr.C110_payer_accountable_partial",
    "Verif.Xfr.C110_payee_accountable_partial",
    "Verif.Xfr.C110_default_commitment_violated"
   ],
   "note": "fewer than 796 attributes (C27); for outputs the policies have to name the issuer (C109); the second half holds of commitments whose first element is not the identity, from two accepted notes with different challenges (special soundness): for the default commitment any attributes can be shown"
  },
  {
   "property": "C111",
   "status": "proved",
   "theorems": [
    "Verif.Setup.C111_deposit",
    "Verif.Setup.C111_deposit_confidential",
    "Verif.Setup.C111_transfer",
    "Verif.Setup.C111_pay_out",
    "Verif.Setup.C111_pay_out_confidential"
   ],
   "note": "an honest reference string is assumed, and laws of curves, encryption and encodings as in C94 and C108; the exceptional challenges are in the statement"
  },
  {
   "property": "C112",
   "status": "proved",
   "theorems": [
    "Verif.Serde.C112_transfer_read",
    "Verif.Serde.C112_transfer_written",
    "Verif.Serde.C112_anonymous_read",
    "Verif.Serde.C112_anonymous_written",
    "Verif.Serde.C112_ar_to_abar_read",
    "Verif.Serde.C112_bar_to_abar_read",
    "Verif.Serde.C112_abar_to_ar_read",
    "Verif.Serde.C112_abar_to_bar_read",
    "Verif.Serde.C112_conversions_written",
    "Verif.Serde.C112_transfer_parts_read",
    "Verif.Serde.C112_transfer_parts_written",
    "Verif.Serde.C112_anonymous_parts_read",
    "Verif.Serde.C112_ar_to_abar_parts_read",
    "Verif.Serde.C112_bar_to_abar_parts_read",
    "Verif.Serde.C112_abar_to_ar_parts_read",
    "Verif.Serde.C112_abar_to_bar_parts_read",
    "Verif.Serde.C112_pool_parts_written"
   ],
   "note": "serde_json modelled from its documented behaviour; owner memos of ordinary records are C106_memo_forms. Where an accepted document writes a struct as an array the other program finds nothing under the names; the statement is about what it finds"
  },
  {
   "property": "C113",
   "status": "proved",
   "theorems": [
    "Verif.Serde.C113_key_pair_read",
    "Verif.Serde.C113_key_pair_written",
    "Verif.Serde.C113_anon_key_pair_read",
    "Verif.Serde.C113_anon_key_pair_written",
    "Verif.Serde.C113_tracer_keys_read",
    "Verif.Serde.C113_tracer_keys_written",
    "Verif.Serde.C113_issuer_secret_read",
    "Verif.Serde.C113_issuer_secret_written",
    "Verif.Serde.C113_credential_read",
    "Verif.Serde.C113_credential_written",
    "Verif.Serde.C113_commitment_key_read",
    "Verif.Serde.C113_commitment_key_written",
    "Verif.Serde.C113_policies_read",
    "Verif.Serde.C113_policies_written",
    "Verif.Serde.C113_open_record_read",
    "Verif.Serde.C113_open_record_written",
    "Verif.Serde.C113_asset_record_read",
    "Verif.Serde.C113_asset_record_written",
    "Verif.Serde.C113_template_read",
    "Verif.Serde.C113_template_written",
    "Verif.Serde.C113_anon_record_read",
    "Verif.Serde.C113_anon_record_written",
    "Verif.Serde.C113_asset_record_parts_read",
    "Verif.Serde.C113_asset_record_parts_written"
   ],
   "note": "serde_json modelled from its documented behaviour"
  },
  {
   "property": "C114",
   "status": "proved",
   "theorems": [
    "Verif.Serde.C114_accepted_iff_document",
    "Verif.Serde.C114_one_meaning",
    "Verif.Serde.C114_read_iff",
    "Verif.Serde.C114_other_texts_refused",
    "Verif.Serde.C114_spelling",
    "Verif.Serde.C114_transfer_foreign",
    "Verif.Serde.C114_pool_foreign",
    "Verif.Serde.C114_twice_refused"
   ],
   "note": "serde_json modelled from its documented behaviour; numbers with a sign, fraction or exponent and pairs of surrogate escapes are in neither the grammar nor the reader"
  },
  {
   "property": "C115",
   "status": "partial",
   "theorems": [
    "Verif.Serde.C115_anonymous_transfer_partial",
    "Verif.Serde.C115_bar_to_abar_partial",
    "Verif.Serde.C115_transfer_partial",
    "Verif.Serde.C115_transfer_spellings_partial",
    "Verif.Serde.C115_transfer_texts_partial",
    "Verif.Serde.C115_ar_to_abar_partial",
    "Verif.Serde.C115_abar_to_ar_partial",
    "Verif.Serde.C115_abar_to_bar_partial",
    "Verif.Serde.C115_anonymous_transfer_pieces_partial",
    "Verif.Serde.C115_scalar_piece_partial",
    "Verif.Serde.C115_ar_to_abar_pieces_partial",
    "Verif.Serde.C115_bar_to_abar_pieces_partial",
    "Verif.Serde.C115_abar_to_ar_pieces_partial",
    "Verif.Serde.C115_abar_to_bar_pieces_partial",
    "Verif.Serde.C115_transfer_pieces_partial",
    "Verif.Serde.C115_respell_inputs_partial",
    "Verif.Serde.C115_anonymous_transfer_violated",
    "Verif.Serde.C115_into_pool_violated",
    "Verif.Serde.C115_public_amount_violated",
    "Verif.Serde.C115_transfer_violated",
    "Verif.Serde.C115_out_of_pool_violated",
    "Verif.Serde.C115_padding_violated",
    "Verif.Serde.C115_padding_out_violated"
   ],
   "note": "Holds in bincode for the frame of a note, that is when the codecs of points, scalars and proofs accept only what they write and amounts are confidential; with public amounts the strings differ only in the texts of these; for any codecs, the strings of a note are exactly those in which these spell its parts; violated with the codecs of the library: scalars are reduced by the order when read, public amounts may start with a plus, and any bytes may follow a point"
  },
  {
   "property": "C12",
   "status": "proved",
   "theorems": [
    "Verif.Xfr.C12_plain_mix_iff",
    "Verif.Xfr.C12_accepted_conserves",
    "Verif.Xfr.C12_supply_invariant"
   ],
   "note": ""
  },
  {
   "property": "C13",
   "status": "proved",
   "theorems": [
    "Verif.Xfr.C13_balance_iff",
    "Verif.Xfr.C13_keys_iff",
    "Verif.Xfr.C13_generated_note",
    "Verif.Xfr.C13_refused"
   ],
   "note": ""
  },
  {
   "property": "C14",
   "status": "proved",
   "theorems": [
    "Verif.Xfr.C14_classification",
    "Verif.Xfr.C14_generated_proof_kind",
    "Verif.Xfr.C14_hidden_fields_are_proved"
   ],
   "note": ""
  },
  {
   "property": "C15",
   "status": "proved",
   "theorems": [
    "Verif.Xfr.C15_plain_amounts_iff",
    "Verif.Xfr.C15_plain_asset_iff",
    "Verif.Xfr.C15_accepted_single_asset"
   ],
   "note": ""
  },
  {
   "property": "C16",
   "status": "partial",
   "theorems": [
    "Verif.Xfr.C16_range_check_covers_outputs",
    "Verif.Xfr.C16_no_inflation",
    "Verif.Xfr.C16_outputs_at_most_inputs",
    "Verif.Xfr.C16_accepted_amounts",
    "Verif.Xfr.C16_accepted_body",
    "Verif.Xfr.C16_burn_accepted",
    "Verif.Xfr.C16_equality_violated"
   ],
   "note": "no inflation is proved, up to an explicit relation between the Pedersen generators and an extractor for the range proof; equality of inputs and outputs is violated by the code (burning is accepted)"
  },
  {
   "property": "C17",
   "status": "proved",
   "theorems": [
    "Verif.Xfr.C17_amount_proof_accepted",
    "Verif.Xfr.C17_honest_note_verifies"
   ],
   "note": "completeness of the external proof systems and of the signatures are hypotheses"
  },
  {
   "property": "C18",
   "status": "proved",
   "theorems": [
    "Verif.Xfr.C18_batch_bodies",
    "Verif.Xfr.C18_batch_notes"
   ],
   "note": "batch verifiers of the external proof systems are assumed to be conjunctions"
  },
  {
   "property": "C19",
   "status": "proved",
   "theorems": [
    "Verif.Xfr.C19_accept_iff",
    "Verif.Xfr.C19_every_owner_signed",
    "Verif.Xfr.C19_order_irrelevant",
    "Verif.Xfr.C19_signed_verifies",
    "Verif.Xfr.C19_accepted_note_signed"
   ],
   "note": ""
  },
  {
   "property": "C20",
   "status": "partial",
   "theorems": [
    "Verif.Xfr.C20_open_built",
    "Verif.Xfr.C20_built_well_formed",
    "Verif.Xfr.C20_build_succeeds_partial",
    "Verif.Xfr.C20_address_panics",
    "Verif.Xfr.C20_opening_unchecked",
    "Verif.Xfr.C20_hostile_memo_panics",
    "Verif.Xfr.C20_lengths_refused"
   ],
   "note": "every record that is built opens to its amount, type and blinding factors; building succeeds for Ed25519 and secp256k1 keys; violated for address keys: building panics when a field is hidden"
  },
  {
   "property": "C21",
   "status": "proved",
   "theorems": [
    "Verif.Xfr.C21_decrypt_returns",
    "Verif.Xfr.C21_decrypt_consistent",
    "Verif.Xfr.C21_extract_finds",
    "Verif.Xfr.C21_extract_refuses",
    "Verif.Xfr.C21_amount_question",
    "Verif.Xfr.C21_type_question",
    "Verif.Xfr.C21_attributes_question",
    "Verif.Xfr.C21_hostile_memo_panics"
   ],
   "note": "hybrid encryption round trip (C38) and the encoding of the attribute ciphertexts are hypotheses; a hostile memo can make the tracer panic"
  },
  {
   "property": "C22",
   "status": "proved",
   "theorems": [
    "Verif.Xfr.C22_split_recombines",
    "Verif.Xfr.C22_split_bijective",
    "Verif.Xfr.C22_commits_to_amount",
    "Verif.Xfr.C22_commitments_binding"
   ],
   "note": ""
  },
  {
   "property": "C23",
   "status": "partial",
   "theorems": [
    "Verif.Xfr.C23_public_key_length",
    "Verif.Xfr.C23_public_key_round_trip",
    "Verif.Xfr.C23_secret_key_length",
    "Verif.Xfr.C23_secret_key_round_trip",
    "Verif.Xfr.C23_key_pair_round_trip",
    "Verif.Xfr.C23_encodings_injective",
    "Verif.Xfr.C23_canonical_partial",
    "Verif.Xfr.C23_secret_canonical_partial",
    "Verif.Xfr.C23_not_canonical"
   ],
   "note": "round trips and injectivity proved; canonicity is violated (legacy lengths, padding bytes, unknown type bytes), exact condition proved"
  },
  {
   "property": "C24",
   "status": "partial",
   "theorems": [
    "Verif.Xfr.C24_signature_length",
    "Verif.Xfr.C24_signature_round_trip",
    "Verif.Xfr.C24_encoding_injective",
    "Verif.Xfr.C24_legacy_and_lengths",
    "Verif.Xfr.C24_type_byte_partial",
    "Verif.Xfr.C24_unknown_type_accepted",
    "Verif.Xfr.C24_recovery_id"
   ],
   "note": "violated: an unknown type byte is taken for Ed25519 and the last byte is ignored"
  },
  {
   "property": "C25",
   "status": "proved",
   "theorems": [
    "Verif.Xfr.C25_prover_groups",
    "Verif.Xfr.C25_verifier_recomputes_groups",
    "Verif.Xfr.C25_verifier_groups",
    "Verif.Xfr.C25_accepted_note_traced",
    "Verif.Xfr.C25_accepted_identities"
   ],
   "note": ""
  },
  {
   "property": "C26",
   "status": "partial",
   "theorems": [
    "Verif.R1cs.C26_mix_sound_partial",
    "Verif.R1cs.C26_list_shuffle",
    "Verif.R1cs.C26_single_input_unchecked",
    "Verif.R1cs.C26_single_output_unchecked",
    "Verif.R1cs.C26_fewer_inputs_inflate",
    "Verif.R1cs.C26_more_inputs_burn"
   ],
   "note": "violated: with one input or one output, or with more outputs than inputs, arbitrary value is created, with more inputs than outputs value can disappear; proved for equally many (at least two) inputs and outputs, and no creation of value for at least as many inputs as outputs"
  },
  {
   "property": "C27",
   "status": "proved",
   "theorems": [
    "Verif.R1cs.C27_mix_complete",
    "Verif.R1cs.C27_types_differ_error",
    "Verif.R1cs.C27_empty"
   ],
   "note": ""
  },
  {
   "property": "C28",
   "status": "proved",
   "theorems": [
    "Verif.R1cs.C28_range_sound",
    "Verif.R1cs.C28_range_complete",
    "Verif.R1cs.C28_range_iff"
   ],
   "note": ""
  },
  {
   "property": "C29",
   "status": "partial",
   "theorems": [
    "Verif.R1cs.C29_satisfiable_iff",
    "Verif.R1cs.C29_public_key_y_unused",
    "Verif.R1cs.C29_anything_provable",
    "Verif.R1cs.C29_scalar_mul_partial",
    "Verif.R1cs.C29_honest_complete"
   ],
   "note": "violated: the slopes are unconstrained and the y coordinate of the public key is not used, any public key is provable; exact meaning of the constraints, completeness, and soundness for honest slopes are proved"
  },
  {
   "property": "C30",
   "status": "partial",
   "theorems": [
    "Verif.Pow.C30_pow",
    "Verif.Pow.C30_pow_array_partial",
    "Verif.Pow.C30_long_exponent_panics"
   ],
   "note": "proved for the default implementation; the overriding ones for BLS12-381 and secp/secq256k1 panic on more than 4 / 5 limbs"
  },
  {
   "property": "C31",
   "status": "partial",
   "theorems": [
    "Verif.Radix.C31_digits",
    "Verif.Radix.C31_zero",
    "Verif.Radix.C31_window_limit",
    "Verif.Radix.C31_window_zero_diverges"
   ],
   "note": "proved for windows 1 to 7; violated for window 0, which passes the assertion but never ends"
  },
  {
   "property": "C32",
   "status": "partial",
   "theorems": [
    "Verif.Pippenger.C32_multi_exp_partial",
    "Verif.Pippenger.C32_eight_hundred_panics"
   ],
   "note": "proved for fewer than 800 terms (default implementation); violated from 800 on: the recoding refuses window 8"
  },
  {
   "property": "C33",
   "status": "partial",
   "theorems": [
    "Verif.Sigma.C33_complete",
    "Verif.Sigma.C33_complete_default_partial",
    "Verif.Sigma.C33_large_instances_panic"
   ],
   "note": "complete for every relation whose multi-exponentiation works; with the default multi-exponentiation (Ristretto) that is below 800 elements and commitments, from there on the verifier panics (C32)"
  },
  {
   "property": "C34",
   "status": "proved",
   "theorems": [
    "Verif.Sigma.C34_accepts_iff_equations",
    "Verif.Sigma.C34_wrong_proofs_accepted_rarely",
    "Verif.Sigma.C34_special_sound",
    "Verif.Sigma.C34_extract"
   ],
   "note": "two oracles that differ at the challenge stand for rewinding; the verifier merges the rows with random coefficients, which is covered by C34_wrong_proofs_accepted_rarely"
  },
  {
   "property": "C35",
   "status": "proved",
   "theorems": [
    "Verif.ChaumPedersen.C35_eq_complete",
    "Verif.ChaumPedersen.C35_eq_accepts_iff",
    "Verif.ChaumPedersen.C35_eq_wrong_accepted_rarely",
    "Verif.ChaumPedersen.C35_eq_special_sound",
    "Verif.ChaumPedersen.C35_multiple_complete",
    "Verif.ChaumPedersen.C35_multiple_accepts_iff",
    "Verif.ChaumPedersen.C35_multiple_extract",
    "Verif.ChaumPedersen.C35_multiple_extract_first",
    "Verif.ChaumPedersen.C35_combination_exceptional",
    "Verif.ChaumPedersen.C35_batch_iff",
    "Verif.ChaumPedersen.C35_batch_wrong_accepted_rarely",
    "Verif.ChaumPedersen.C35_batch_short_panics",
    "Verif.ChaumPedersen.C35_shape_required"
   ],
   "note": "extraction for many commitments up to an explicit relation between the generators"
  },
  {
   "property": "C36",
   "status": "proved",
   "theorems": [
    "Verif.PedersenElGamal.C36_eq_complete",
    "Verif.PedersenElGamal.C36_eq_accepts_iff",
    "Verif.PedersenElGamal.C36_special_sound",
    "Verif.PedersenElGamal.C36_aggregate_linear",
    "Verif.PedersenElGamal.C36_aggregate_complete",
    "Verif.PedersenElGamal.C36_batch_iff",
    "Verif.PedersenElGamal.C36_batch_wrong_accepted_rarely",
    "Verif.PedersenElGamal.C36_aggregate_extract",
    "Verif.PedersenElGamal.C36_aggregate_extract_first",
    "Verif.PedersenElGamal.C36_lengths_panic"
   ],
   "note": ""
  },
  {
   "property": "C37",
   "status": "proved",
   "theorems": [
    "Verif.ElGamal.C37_decrypts",
    "Verif.ElGamal.C37_verify_iff",
    "Verif.ElGamal.C37_verify_unique",
    "Verif.ElGamal.C37_wrong_key",
    "Verif.ElGamal.C37_bytes_round_trip",
    "Verif.ElGamal.C37_bad_length_panics"
   ],
   "note": ""
  },
  {
   "property": "C38",
   "status": "proved",
   "theorems": [
    "Verif.Xfr.C38_key_stream",
    "Verif.Xfr.C38_x25519_round_trip",
    "Verif.Xfr.C38_ed25519_round_trip",
    "Verif.Xfr.C38_secp256k1_round_trip",
    "Verif.Xfr.C38_ciphertext_bytes",
    "Verif.Xfr.C38_secret_key_bytes",
    "Verif.Xfr.C38_transfer_keys",
    "Verif.Xfr.C38_encryption_succeeds"
   ],
   "note": "Diffie-Hellman commutativity, point encodings and AES-GCM correctness are hypotheses"
  },
  {
   "property": "C39",
   "status": "partial",
   "theorems": [
    "Verif.AnonCreds.C39_open_partial",
    "Verif.AnonCreds.C39_commit_partial",
    "Verif.AnonCreds.C39_api_partial",
    "Verif.AnonCreds.C39_revealed_attributes",
    "Verif.AnonCreds.C39_lengths_refused",
    "Verif.AnonCreds.C39_large_keys_panic",
    "Verif.AnonCreds.C39_extra_attribute_panics"
   ],
   "note": "complete below 796 attributes; from 796 on the verifier panics (C32); a credential with more attributes than the key makes the prover panic; the pairing is a parameter, its bilinearity a hypothesis"
  },
  {
   "property": "C40",
   "status": "partial",
   "theorems": [
    "Verif.AnonCreds.C40_accepts_iff",
    "Verif.AnonCreds.C40_special_sound_partial",
    "Verif.AnonCreds.C40_commit_special_sound_partial",
    "Verif.AnonCreds.C40_valid_iff_granted",
    "Verif.AnonCreds.C40_revealed_cannot_change_partial",
    "Verif.AnonCreds.C40_one_attribute_cannot_change_partial",
    "Verif.AnonCreds.C40_identity_commitment_accepted",
    "Verif.AnonCreds.C40_identity_commitment_checked",
    "Verif.AnonCreds.C40_extra_attribute_accepted"
   ],
   "note": "violated: the identity commitment is accepted for any attributes under any key, and extra revealed attributes at the end are not checked; special soundness and immutability proved for the other commitments and attribute lists of the right length"
  },
  {
   "property": "C41",
   "status": "partial",
   "theorems": [
    "Verif.ConfidentialCreds.C41_complete_partial",
    "Verif.ConfidentialCreds.C41_special_sound_partial",
    "Verif.ConfidentialCreds.C41_decrypts",
    "Verif.ConfidentialCreds.C41_lengths_refused",
    "Verif.ConfidentialCreds.C41_no_panic_partial",
    "Verif.ConfidentialCreds.C41_identity_commitment_accepted"
   ],
   "note": "violated for the identity commitment, and panics from 796 attributes on; completeness, special soundness and length checks proved otherwise"
  },
  {
   "property": "C42",
   "status": "proved",
   "theorems": [
    "Verif.Rescue.C42_online_keys",
    "Verif.Rescue.C42_block_bijective",
    "Verif.Rescue.C42_alpha_inverse",
    "Verif.Rescue.C42_keyed_bijective",
    "Verif.Rescue.C42_rescue_bijective",
    "Verif.Rescue.C42_test_vectors"
   ],
   "note": "over the actual BLS12-381 constants of the repository, which reproduce the test vectors of rescue.rs in the kernel; the scalar field order is proved prime"
  },
  {
   "property": "C43",
   "status": "partial",
   "theorems": [
    "Verif.Jive.C43_trace_output",
    "Verif.Jive.C43_trace_equations",
    "Verif.Jive.C43_equations_determine_output",
    "Verif.Jive.C43_constants",
    "Verif.Jive.C43_permutation_bijective",
    "Verif.Jive.C43_alpha_constant_wrong"
   ],
   "note": "everything about the function and its trace is proved; the declared ALPHA = 7 disagrees with get_alpha_inv, which inverts 5"
  },
  {
   "property": "C44",
   "status": "proved",
   "theorems": [
    "Verif.Plonk.C44_eval_gate_func",
    "Verif.Plonk.C44_selector_multipliers",
    "Verif.Plonk.C44_wrong_lengths",
    "Verif.Plonk.C44_verify_witness"
   ],
   "note": ""
  },
  {
   "property": "C45",
   "status": "proved",
   "theorems": [
    "Verif.Plonk.C45_gadgets_sound",
    "Verif.Plonk.C45_gadgets_complete",
    "Verif.Plonk.C45_relations_persist",
    "Verif.Plonk.C45_add_variables"
   ],
   "note": "gadgets that use the constants assume variables 0 and 1 hold 0 and 1, which the system does not enforce (C47)"
  },
  {
   "property": "C46",
   "status": "proved",
   "theorems": [
    "Verif.Plonk.C46_range_check_sound",
    "Verif.Plonk.C46_range_check_exact",
    "Verif.Plonk.C46_range_check_complete"
   ],
   "note": ""
  },
  {
   "property": "C47",
   "status": "partial",
   "theorems": [
    "Verif.Plonk.C47_equal_not_enforced",
    "Verif.Plonk.C47_constants_partial"
   ],
   "note": "violated: variables 0 and 1 are not constrained by any gate"
  },
  {
   "property": "C48",
   "status": "proved",
   "theorems": [
    "Verif.Plonk.C48_is_permutation",
    "Verif.Plonk.C48_cycles_are_variables",
    "Verif.Plonk.C48_invariant_iff_assignment"
   ],
   "note": ""
  },
  {
   "property": "C49",
   "status": "proved",
   "theorems": [
    "Verif.Plonk.C49_rescue_sound",
    "Verif.Plonk.C49_rescue_complete",
    "Verif.Plonk.C49_rescue_of_new_state",
    "Verif.Plonk.C49_rescue_uniform"
   ],
   "note": ""
  },
  {
   "property": "C50",
   "status": "proved",
   "theorems": [
    "Verif.Plonk.C50_public_point",
    "Verif.Plonk.C50_ecc_add_sound",
    "Verif.Plonk.C50_ecc_add_coordinates",
    "Verif.Plonk.C50_ecc_select_sound",
    "Verif.Plonk.C50_scalar_mul_sound",
    "Verif.Plonk.C50_scalar_mul_complete",
    "Verif.Plonk.C50_scalar_mul_uniform"
   ],
   "note": "for any complete twisted Edwards group; the Jubjub curve of the repository is shown to be one (group law, completeness and the constant are proved)"
  },
  {
   "property": "C51",
   "status": "partial",
   "theorems": [
    "Verif.Anon.C51_mixing_sound_partial",
    "Verif.Anon.C51_mixing_complete",
    "Verif.Anon.C51_mixing_uniform",
    "Verif.Anon.C51_mixing_unsound"
   ],
   "note": "violated as it stands: with one_var = 0 the verifier circuit accepts inflation (C51_mixing_unsound); sound when one_var holds one"
  },
  {
   "property": "C52",
   "status": "partial",
   "theorems": [
    "Verif.Anon.C52_accepts_iff",
    "Verif.Anon.C52_balance_partial",
    "Verif.Anon.C52_fee_skipped"
   ],
   "note": "violated: without a record of the fee type the fee is not looked at; exact meaning proved, full claim proved otherwise"
  },
  {
   "property": "C53",
   "status": "partial",
   "theorems": [
    "Verif.Anon.C53_merkle_path_sound_partial",
    "Verif.Anon.C53_merkle_path_complete",
    "Verif.Anon.C53_merkle_path_uniform",
    "Verif.Anon.C53_native_agrees",
    "Verif.Anon.C53_bits_injective"
   ],
   "note": "soundness needs variable zero to hold zero, which the gadget itself does not enforce"
  },
  {
   "property": "C54",
   "status": "proved",
   "theorems": [
    "Verif.Anon.C54_round_trip",
    "Verif.Anon.C54_accepted_recommits",
    "Verif.Anon.C54_memo_cannot_lie"
   ],
   "note": ""
  },
  {
   "property": "C55",
   "status": "proved",
   "theorems": [
    "Verif.Anon.C55_commitment_binding",
    "Verif.Anon.C55_nullifier_binding"
   ],
   "note": "binding up to an explicitly computed collision of the permutation output word; uids and amounts are 64-bit numbers"
  },
  {
   "property": "C56",
   "status": "proved",
   "theorems": [
    "Verif.Anon.C56_secret_scalars_injective",
    "Verif.Anon.C56_public_scalars_injective",
    "Verif.Anon.C56_one_secret",
    "Verif.Anon.C56_bytes_round_trip",
    "Verif.Anon.C56_pair_not_compared",
    "Verif.Anon.C56_pair_length",
    "Verif.Anon.C56_pair_bytes_malleable"
   ],
   "note": ""
  },
  {
   "property": "C57",
   "status": "proved",
   "theorems": [
    "Verif.Poly.C57_eval",
    "Verif.Poly.C57_ring_operations",
    "Verif.Poly.C57_results_normal",
    "Verif.Poly.C57_equality",
    "Verif.Poly.C57_degree_and_zero",
    "Verif.Poly.C57_add_coef",
    "Verif.Poly.C57_from_zeroes",
    "Verif.Poly.C57_div_rem",
    "Verif.Poly.C57_div_rem_panics"
   ],
   "note": "Against Mathlib polynomials, for all coefficient vectors. div_rem panics exactly for a divisor that is empty or whose last coefficient is zero (not longer than the dividend); is_zero panics on an empty vector."
  },
  {
   "property": "C58",
   "status": "proved",
   "theorems": [
    "Verif.Poly.C58_fft_evaluates",
    "Verif.Poly.C58_coset_fft_evaluates",
    "Verif.Poly.C58_ffti_interpolates",
    "Verif.Poly.C58_ffti_inverts_fft",
    "Verif.Poly.C58_fft_inverts_ffti",
    "Verif.Poly.C58_coset_ffti_inverts",
    "Verif.Poly.C58_bad_size_panics",
    "Verif.Poly.C58_high_degree",
    "Verif.Poly.C58_primitive_root",
    "Verif.Poly.C58_fft",
    "Verif.Poly.C58_bls"
   ],
   "note": "For polynomials with at most n coefficients and n < 2^32 (the inverse casts n to u32). C58_high_degree: for n+1 coefficients the padding length underflows (panic), for more the result is longer than n."
  },
  {
   "property": "C59",
   "status": "proved",
   "theorems": [
    "Verif.Poly.C59_commit",
    "Verif.Poly.C59_binding",
    "Verif.Poly.C59_open_complete",
    "Verif.Poly.C59_value_unique",
    "Verif.Poly.C59_other_value_rejected",
    "Verif.Poly.C59_two_values_extract",
    "Verif.Poly.C59_batch_complete",
    "Verif.Poly.C59_batch_sound",
    "Verif.Poly.C59_diff_points_complete",
    "Verif.Poly.C59_diff_points_sound",
    "Verif.Poly.C59_diff_points_panics_iff",
    "Verif.Poly.C59_known_challenge_forges",
    "Verif.Poly.C59_apply_blind_factors",
    "Verif.Poly.C59_shrink",
    "Verif.Poly.C59_batch_length_unchecked"
   ],
   "note": "Over a bilinear pairing and a multi-exponentiation computing the linear combination. C59_known_challenge_forges: batch_verify_diff_points is only sound if the challenge is unknown when the proofs are chosen (see C70)."
  },
  {
   "property": "C60",
   "status": "proved",
   "theorems": [
    "Verif.Snark.C60_build_group",
    "Verif.Snark.C60_build_group_too_large",
    "Verif.Snark.C60_hide",
    "Verif.Snark.C60_split",
    "Verif.Snark.C60_first_lagrange",
    "Verif.Snark.C60_lagrange_constant",
    "Verif.Snark.C60_eval_pi",
    "Verif.Snark.C60_parallel_eval_pi",
    "Verif.Snark.C60_z_poly",
    "Verif.Snark.C60_linearisation_commitment",
    "Verif.Snark.C60_parallel_commitment",
    "Verif.Snark.C60_parallel_polynomial",
    "Verif.Snark.C60_indexer",
    "Verif.Snark.C60_choose_ks",
    "Verif.Snark.C60_choose_ks_cosets_may_meet"
   ],
   "note": "For all constraint systems, sizes and challenges. rayon is modelled as the sequential fold, which agrees because the operations are associative and commutative; the multi-exponentiation is a parameter assumed correct (MsmCorrect); roots of unity and coset representatives are hypotheses (Domain)."
  },
  {
   "property": "C61",
   "status": "proved",
   "theorems": [
    "Verif.SimFr.C61_round_trip",
    "Verif.SimFr.C61_from",
    "Verif.SimFr.C61_value",
    "Verif.SimFr.C61_is_zero",
    "Verif.SimFr.C61_sub",
    "Verif.SimFr.C61_mul",
    "Verif.SimFr.C61_add",
    "Verif.SimFr.C61_mul_sub",
    "Verif.SimFr.C61_enforce_zero",
    "Verif.SimFr.C61_alloc_constant_sound",
    "Verif.SimFr.C61_alloc_witness_sound",
    "Verif.SimFr.C61_alloc_bounded_sound",
    "Verif.SimFr.C61_sub_sound",
    "Verif.SimFr.C61_mul_sound",
    "Verif.SimFr.C61_add_sound",
    "Verif.SimFr.C61_mul_sub_sound",
    "Verif.SimFr.C61_enforce_zero_sound",
    "Verif.SimFr.C61_alloc_constant_complete",
    "Verif.SimFr.C61_alloc_input_complete",
    "Verif.SimFr.C61_alloc_witness_complete",
    "Verif.SimFr.C61_alloc_bounded_complete",
    "Verif.SimFr.C61_sub_complete",
    "Verif.SimFr.C61_mul_complete",
    "Verif.SimFr.C61_add_complete",
    "Verif.SimFr.C61_mul_sub_complete",
    "Verif.SimFr.C61_enforce_zero_complete",
    "Verif.SimFr.C61_sub_uniform",
    "Verif.SimFr.C61_mul_uniform",
    "Verif.SimFr.C61_add_uniform",
    "Verif.SimFr.C61_mul_sub_uniform",
    "Verif.SimFr.C61_enforce_zero_uniform"
   ],
   "note": "For both parameter sets of the code and any field with canonical representatives whose order is at least 2^(4*bits+8). Native operations and their circuits: values, soundness against arbitrary stored values, honest runs, and independence of the circuit from the values. Soundness of the circuit mul and enforce_zero, and of witnesses with a bounded number of bits, needs zero_var to hold zero. alloc_input adds no constraint."
  },
  {
   "property": "C62",
   "status": "proved",
   "theorems": [
    "Verif.Anon.C62_comparison_sound",
    "Verif.Anon.C62_comparison_complete",
    "Verif.Anon.C62_comparison_uniform"
   ],
   "note": "soundness needs variable zero to hold zero"
  },
  {
   "property": "C63",
   "status": "partial",
   "theorems": [
    "Verif.Anon.C63_batch_iff",
    "Verif.Anon.C63_batch_covers_partial",
    "Verif.Anon.C63_batch_ignores_notes"
   ],
   "note": "violated: lists of different lengths are truncated to the shortest; proved for equal lengths"
  },
  {
   "property": "C64",
   "status": "partial",
   "theorems": [
    "Verif.Words.C64_readers_invert_writers",
    "Verif.Words.C64_readers_panic_iff",
    "Verif.Words.C64_big_endian",
    "Verif.Words.C64_shift_halves",
    "Verif.Words.C64_shift_total",
    "Verif.Words.C64_field_size_half",
    "Verif.Words.C64_limbs_preserve_value",
    "Verif.Words.C64_pack_then_unpack",
    "Verif.Words.C64_unpack_then_pack",
    "Verif.Words.C64_limb_count",
    "Verif.Words.C64_min_power_of_two",
    "Verif.Words.C64_min_power_saturates",
    "Verif.Words.C64_four_limbs",
    "Verif.Words.C64_secp256k1_limbs_panic"
   ],
   "note": "everything proved except: the power-of-two helper saturates above 2^31, and the limb reader of secp256k1 scalars panics for every scalar; floating-point log2 taken as exact"
  },
  {
   "property": "C65",
   "status": "proved",
   "theorems": [
    "Verif.DelegatedSchnorr.C65_accepts_iff",
    "Verif.DelegatedSchnorr.C65_complete",
    "Verif.DelegatedSchnorr.C65_special_sound",
    "Verif.DelegatedSchnorr.C65_lengths_panic",
    "Verif.StateComm.C65_state_commitment_binding",
    "Verif.StateComm.C65_state_commitment_total"
   ],
   "note": "The commitment to the state of the inspector is a parameter of the protocol model; it is modelled separately and binding up to an explicit collision of the permutation."
  },
  {
   "property": "C66",
   "status": "proved",
   "theorems": [
    "Verif.Xfr.C66_decodes_iff",
    "Verif.Xfr.C66_order_independent",
    "Verif.Xfr.C66_rejects",
    "Verif.Xfr.C66_round_trip",
    "Verif.Xfr.C66_old_layout",
    "Verif.Xfr.C66_hostile_point_panics",
    "Verif.Xfr.C66_positional"
   ],
   "note": "serde formats are a parameter"
  },
  {
   "property": "C67",
   "status": "partial",
   "theorems": [
    "Verif.Anon.C67_transfer_sound_partial",
    "Verif.Anon.C67_transfer_complete",
    "Verif.Anon.C67_transfer_uniform",
    "Verif.Anon.C67_transfer_unsound",
    "Verif.Anon.C67_transfer_folding_sound_partial",
    "Verif.Anon.C67_transfer_folding_complete",
    "Verif.Anon.C67_transfer_folding_unsound"
   ],
   "note": "violated as it stands: with one_var = 0 the verifier circuit accepts inflation (C67_transfer_unsound, also with the address folding circuit in place: C67_transfer_folding_unsound); sound when one_var holds one."
  },
  {
   "property": "C68",
   "status": "proved",
   "theorems": [
    "Verif.Anon.C68_input_stored",
    "Verif.Anon.C68_spends_stored",
    "Verif.Anon.C68_one_nullifier",
    "Verif.Anon.C68_leaf_is_node_hash"
   ],
   "note": "for transfers valid in the sense of C67; up to explicit collisions and zero preimages; one secret key per public key is a hypothesis"
  },
  {
   "property": "C69",
   "status": "partial",
   "theorems": [
    "Verif.Msm.C69_msm_partial",
    "Verif.Msm.C69_msm_small",
    "Verif.Msm.C69_few_bad_secrets",
    "Verif.Msm.C69_commit_monomials",
    "Verif.Msm.C69_commit_lagrange",
    "Verif.Snark.C69_code_msm_partial",
    "Verif.Snark.C69_code_msm_small",
    "Verif.Msm.C69_equal_points",
    "Verif.Msm.C69_opposite_points"
   ],
   "note": "violated: when a bucket above sixteen elements pairs two equal or two opposite bases, the batch affine addition inverts zero and the sum is wrong. Proved: the result is right when no such pair is met (always with at most sixteen scalars other than zero), and for the bases of a commitment key all but a counted number of secrets avoid such pairs."
  },
  {
   "property": "C70",
   "status": "partial",
   "theorems": [
    "Verif.Snark.C70_forged_long",
    "Verif.Snark.C70_forged_shaped",
    "Verif.Snark.C70_unsatisfiable_accepted",
    "Verif.Snark.C70_malformed_panics",
    "Verif.Snark.C70_extracts_late_u_partial",
    "Verif.Snark.C70_sound_late_u_partial"
   ],
   "note": "violated: for every constraint system the verifier accepts proofs that anybody can compute, (A) with additional permutation values, which are zipped against the missing commitments, and (B) with the proper shape, because the challenge that separates the two openings is drawn before the opening proofs are sent; malformed proofs panic. C70_sound_late_u_partial: with proofs of the right shape and that challenge drawn last, an algebraic prover is rejected for unsatisfiable systems outside of explicit small sets of challenges and secrets; C70_extracts_late_u_partial: also whenever the assignment that its wire polynomials hold does not satisfy the system."
  },
  {
   "property": "C71",
   "status": "proved",
   "theorems": [
    "Verif.Snark.C71_quotient",
    "Verif.Snark.C71_complete",
    "Verif.Snark.C71_unlucky_few",
    "Verif.Snark.C71_bad_gamma",
    "Verif.Snark.C71_complete_any_msm"
   ],
   "note": "For all systems well formed as the gadgets build them (WF), domains (Domain) and correct multi-exponentiation (MsmCorrect), with and without a Lagrange key; C71_complete_any_msm: for the multi-exponentiation of the code (C69) in runs that meet no wrong result of it."
  },
  {
   "property": "C72",
   "status": "proved",
   "theorems": [
    "Verif.Anon.C72_folding_sound",
    "Verif.Anon.C72_folding_zero_var",
    "Verif.Anon.C72_folding_complete",
    "Verif.Anon.C72_folding_uniform",
    "Verif.Anon.C72_folding_links",
    "Verif.Anon.C72_secret_scalars",
    "Verif.Anon.C72_public_scalars"
   ],
   "note": "For parameters meeting FoldOk (proved for those of the code: secq_fold) and assignments with w 0 = 0, which the circuit forces unless all key scalars are zero (C72_folding_zero_var). The scalar multiplication proof outside the circuit is C29."
  },
  {
   "property": "C73",
   "status": "proved",
   "theorems": [
    "Verif.Anon.C73_ar_to_abar_sound",
    "Verif.Anon.C73_ar_to_abar_complete",
    "Verif.Anon.C73_ar_to_abar_uniform"
   ],
   "note": "the circuit does not force variable zero; what a commitment made with another value is good for is part of the statement (opening it is a collision)"
  },
  {
   "property": "C74",
   "status": "proved",
   "theorems": [
    "Verif.Anon.C74_abar_to_ar_sound",
    "Verif.Anon.C74_redeems_stored",
    "Verif.Anon.C74_abar_to_ar_complete",
    "Verif.Anon.C74_abar_to_ar_uniform"
   ],
   "note": "for parameters meeting FoldOk (proved for those of the code); up to explicit collisions and preimages of zero"
  },
  {
   "property": "C75",
   "status": "proved",
   "theorems": [
    "Verif.Anon.C75_bar_to_abar_sound",
    "Verif.Anon.C75_inspection_links",
    "Verif.Anon.C75_opening_binding",
    "Verif.Anon.C75_bar_to_abar_complete",
    "Verif.Anon.C75_bar_to_abar_uniform"
   ],
   "note": "for parameters meeting InspOk (proved for those of the code: ristretto_insp); up to explicit collisions"
  },
  {
   "property": "C76",
   "status": "proved",
   "theorems": [
    "Verif.Anon.C76_abar_to_bar_sound",
    "Verif.Anon.C76_redeems_stored",
    "Verif.Anon.C76_abar_to_bar_complete",
    "Verif.Anon.C76_abar_to_bar_uniform"
   ],
   "note": "for parameters meeting FoldOk and InspOk; the link to the commitments of the new record is C75_inspection_links; up to explicit collisions and preimages of zero"
  },
  {
   "property": "C77",
   "status": "partial",
   "theorems": [
    "Verif.Anon.C77_ar_to_abar_conserves",
    "Verif.Anon.C77_abar_to_ar_conserves",
    "Verif.Anon.C77_record_commitments",
    "Verif.Anon.C77_bar_to_abar_whole",
    "Verif.Anon.C77_abar_to_bar_whole",
    "Verif.Anon.C77_bar_to_abar_conserves",
    "Verif.Anon.C77_abar_to_bar_conserves_partial",
    "Verif.Anon.C77_halves_unchecked"
   ],
   "note": "from acceptance by the verifier to the records, assuming that the PLONK verifier is an argument of knowledge (Knows), which the one of the code is not (C70). For confidential records special soundness of the delegated Schnorr proof: two first and two second challenges. Violated for the halves of a new confidential amount: they are not checked to have 32 bits, so openings with larger halves, which the ledger cannot spend, are accepted."
  },
  {
   "property": "C78",
   "status": "partial",
   "theorems": [
    "Verif.Anon.C78_ar_to_abar_batch",
    "Verif.Anon.C78_abar_to_ar_batch_iff",
    "Verif.Anon.C78_abar_to_ar_batch_partial",
    "Verif.Anon.C78_abar_to_ar_ignores",
    "Verif.Anon.C78_bar_to_abar_batch_iff",
    "Verif.Anon.C78_bar_to_abar_batch_partial",
    "Verif.Anon.C78_bar_to_abar_ignores",
    "Verif.Anon.C78_abar_to_bar_batch_iff",
    "Verif.Anon.C78_abar_to_bar_batch_partial",
    "Verif.Anon.C78_abar_to_bar_ignores"
   ],
   "note": "holds for lists of one length; violated when a list of keys, roots or hashes is shorter: the remaining notes are accepted unseen"
  },
  {
   "property": "C79",
   "status": "partial",
   "theorems": [
    "Verif.Anon.C79_ar_to_abar_returns",
    "Verif.Anon.C79_abar_to_ar_panics_iff",
    "Verif.Anon.C79_bar_to_abar_panics_iff",
    "Verif.Anon.C79_abar_to_bar_returns_partial",
    "Verif.Anon.C79_abar_to_bar_panics"
   ],
   "note": "violated: notes with delegated Schnorr proofs of the wrong length, or fewer than three folding commitments, make the verifiers panic; the condition is exact for two of the three"
  },
  {
   "property": "C80",
   "status": "proved",
   "theorems": [
    "Verif.Anon.C80_ar_to_abar_complete",
    "Verif.Anon.C80_bar_to_abar_complete",
    "Verif.Anon.C80_abar_to_ar_complete",
    "Verif.Anon.C80_abar_to_bar_complete"
   ],
   "note": "assuming completeness of the PLONK prover for the circuit (C71), of the Bulletproofs prover for the key pair and of signatures"
  },
  {
   "property": "C81",
   "status": "partial",
   "theorems": [
    "Verif.Anon.C81_ar_to_abar_signed",
    "Verif.Anon.C81_bar_to_abar_signed_partial",
    "Verif.Anon.C81_bar_to_abar_other_key"
   ],
   "note": "violated for confidential records: the verifier checks the signature against a key given by the caller and does not compare it with the key in the record"
  },
  {
   "property": "C82",
   "status": "partial",
   "theorems": [
    "Verif.Sigma.C82_sigma_binds",
    "Verif.ChaumPedersen.C82_equality_binds",
    "Verif.ChaumPedersen.C82_multiple_binds",
    "Verif.PedersenElGamal.C82_aggregated_binds",
    "Verif.DelegatedSchnorr.C82_delegated_binds",
    "Verif.AnonCreds.C82_open_binds",
    "Verif.AnonCreds.C82_commit_binds",
    "Verif.AnonCreds.C82_confidential_binds",
    "Verif.AnonCreds.C82_credentials_separate",
    "Verif.AnonCreds.C82_revealed_not_bound",
    "Verif.Anon.C82_note_labels",
    "Verif.Setup.C82_live_kinds",
    "Verif.Setup.C82_live_verdict",
    "Verif.Setup.C82_live_notes",
    "Verif.Snark.C82_plonk_points",
    "Verif.Snark.C82_plonk_binds_partial",
    "Verif.Snark.C82_plonk_not_bound",
    "Verif.Snark.C82_batch_values_not_bound"
   ],
   "note": "the transcript at each challenge determines statement and messages, for every protocol of the code. Violated in three places: the revealed attributes of a presentation, the values of a batched opening checked by batch_verify, and the opening witnesses of PLONK are not absorbed; the first two are exploited here, the third in C70"
  },
  {
   "property": "C83",
   "status": "partial",
   "theorems": [
    "Verif.Anon.C83_transfer_note_sound_partial",
    "Verif.Anon.C83_distinct_records",
    "Verif.Anon.C83_memos_ignored",
    "Verif.Anon.C83_unsound",
    "Verif.Anon.C83_counts_unchecked",
    "Verif.Anon.C83_same_record_twice",
    "Verif.Anon.C83_batch_iff",
    "Verif.Anon.C83_batch_ignores",
    "Verif.Anon.C83_panics_iff"
   ],
   "note": "from acceptance by the verifier of a transfer note to the records, for assignments with the constant one, notes with as many inputs and outputs as the parameters, and an argument of knowledge (KnowsXfr), which the PLONK of the code is not (C70). Violated: the constant one is not fixed, the counts are not compared with the parameters, one record can be spent twice in one note, memos and root version are not bound by the verifier"
  },
  {
   "property": "C84",
   "status": "partial",
   "theorems": [
    "Verif.Anon.C84_init_accepts",
    "Verif.Anon.C84_init_rejects",
    "Verif.Anon.C84_positive_types",
    "Verif.Anon.C84_transfer_complete",
    "Verif.Anon.C84_fee_type_missing"
   ],
   "note": "generation accepts exactly the transfers that fit and never panics on the others; such transfers are provable if the fee type is among the inputs and every type is on both sides. Violated at this edge: transfers without an input of the fee type are accepted by init and cannot be proven"
  },
  {
   "property": "C85",
   "status": "partial",
   "theorems": [
    "Verif.Codec.C85_field_sizes",
    "Verif.Codec.C85_scalar_roundtrip",
    "Verif.Codec.C85_scalar_accepts",
    "Verif.Codec.C85_scalar_canonical_partial",
    "Verif.Codec.C85_scalar_encodings_violated",
    "Verif.Codec.C85_scalar_integers",
    "Verif.Codec.C85_limbs_four",
    "Verif.Codec.C85_limbs_five",
    "Verif.Codec.C85_limbs_secp_violated",
    "Verif.Codec.C85_inv",
    "Verif.Codec.C85_ristretto_roundtrip",
    "Verif.Codec.C85_ristretto_accepts",
    "Verif.Codec.C85_ristretto_value_partial",
    "Verif.Codec.C85_ristretto_value_violated",
    "Verif.Codec.C85_ristretto_equality_partial",
    "Verif.Codec.C85_ristretto_equality_violated",
    "Verif.Codec.C85_ristretto_arithmetic",
    "Verif.Codec.C85_ristretto_limbs",
    "Verif.Codec.C85_ristretto_integers_partial",
    "Verif.Codec.C85_ristretto_integers_violated",
    "Verif.Codec.C85_ristretto_inv_partial",
    "Verif.Codec.C85_ristretto_inv_violated",
    "Verif.Codec.C85_orders_prime",
    "Verif.Codec.C85_generators",
    "Verif.Codec.C85_inverses"
   ],
   "note": "orders, generators and the values 2 and 3..6 as nonresidues by certificates. Violated: strings of fewer bytes and unreduced strings decode too (several encodings of one scalar); get_little_endian_u64 of SECP256K1Scalar always panics; Ristretto scalars are not reduced on decoding and compared by bytes; From<&BigUint> for RistrettoScalar panics for residues below 2^248; the inverse of the Ristretto zero is zero, not an error"
  },
  {
   "property": "C86",
   "status": "partial",
   "theorems": [
    "Verif.Codec.C86_point_roundtrip",
    "Verif.Codec.C86_point_accepts",
    "Verif.Codec.C86_point_canonical_partial",
    "Verif.Codec.C86_point_trailing_violated",
    "Verif.Codec.C86_compressed_roundtrip",
    "Verif.Codec.C86_ristretto_roundtrip",
    "Verif.Codec.C86_ristretto_canonical",
    "Verif.Codec.C86_dalek_panics_violated",
    "Verif.Codec.C86_x25519",
    "Verif.Codec.C86_serde_roundtrip",
    "Verif.Codec.C86_serde_same",
    "Verif.Codec.C86_serde_panics_violated"
   ],
   "note": "compression of the curve libraries is assumed correct (Laws); base64 likewise. Violated: trailing bytes after an arkworks point are ignored; strings of a length other than 32 make the Ristretto decoders panic, also through serde"
  },
  {
   "property": "C87",
   "status": "proved",
   "theorems": [
    "Verif.Codec.C87_same_number",
    "Verif.Codec.C87_injective",
    "Verif.Codec.C87_other_width_panics"
   ],
   "note": "SHA-256 is a parameter; the branch for scalar types of another width, which no type of the code takes, would always panic"
  },
  {
   "property": "C88",
   "status": "partial",
   "theorems": [
    "Verif.Setup.C88_key_roundtrip",
    "Verif.Setup.C88_key_lengths",
    "Verif.Setup.C88_key_no_panic_partial",
    "Verif.Setup.C88_key_panics_violated",
    "Verif.Setup.C88_lagrange",
    "Verif.Setup.C88_shrink_keeps",
    "Verif.Setup.C88_shrink_verifies",
    "Verif.Setup.C88_load",
    "Verif.Setup.C88_load_without_files",
    "Verif.Setup.C88_load_limits",
    "Verif.Setup.C88_load_zero_violated",
    "Verif.Setup.C88_conversion_file",
    "Verif.Setup.C88_conversion_rebuilt",
    "Verif.Setup.C88_transfer_keys",
    "Verif.Setup.C88_ar_to_abar_keys",
    "Verif.Setup.C88_abar_to_ar_keys",
    "Verif.Setup.C88_bar_to_abar_keys",
    "Verif.Setup.C88_abar_to_bar_keys",
    "Verif.Setup.C88_files_complete"
   ],
   "note": "bincode and the raw point formats are parameters with round-trip laws (C101 proves those of bincode); honest reference string assumed for completeness; a commitment key cut after its header panics (C88_key_panics_violated), and loading for no inputs or no outputs panics (C88_load_zero_violated)"
  },
  {
   "property": "C89",
   "status": "proved",
   "theorems": [
    "Verif.Snark.C89_zero_knowledge",
    "Verif.Snark.C89_count",
    "Verif.Snark.C89_witness_indistinguishable",
    "Verif.Snark.C89_simulated_accepted"
   ],
   "note": "perfect, with the challenges as an arbitrary fixed function of the transcript; proofs whose challenges make a denominator of the accumulator zero, or equal the secret of the setup, are excluded by GoodFor"
  },
  {
   "property": "C90",
   "status": "proved",
   "theorems": [
    "Verif.Sigma.C90_sigma",
    "Verif.Sigma.C90_sigma_indistinguishable",
    "Verif.ChaumPedersen.C90_chaum_pedersen",
    "Verif.ChaumPedersen.C90_chaum_pedersen_multiple",
    "Verif.PedersenElGamal.C90_pedersen_elgamal",
    "Verif.PedersenElGamal.C90_pedersen_elgamal_aggregate",
    "Verif.DelegatedSchnorr.C90_delegated_schnorr"
   ],
   "note": "perfect, with the challenge as an arbitrary fixed function of the transcript; delegated Schnorr is relative to the state commitment, whose hiding is not claimed here"
  },
  {
   "property": "C91",
   "status": "proved",
   "theorems": [
    "Verif.AnonCreds.C91_presentation",
    "Verif.AnonCreds.C91_unlinkable",
    "Verif.AnonCreds.C91_commitment",
    "Verif.ConfidentialCreds.C91_confidential",
    "Verif.ConfidentialCreds.C91_ciphertexts"
   ],
   "note": "groups of prime order and a non-degenerate pairing; the randomizer with first element the identity (one choice of r) is excluded; for confidentially revealed attributes the ciphertexts are given (ElGamal hides only computationally)"
  },
  {
   "property": "C92",
   "status": "proved",
   "theorems": [
    "Verif.Xfr.C92_pedersen",
    "Verif.Xfr.C92_record_hides",
    "Verif.Xfr.C92_amount_hides",
    "Verif.Xfr.C92_type_hides"
   ],
   "note": "the hash is a random oracle; the encrypted memo, which hides only computationally, is not part of the claim"
  },
  {
   "property": "C93",
   "status": "proved",
   "theorems": [
    "Verif.Setup.C93_transfer",
    "Verif.Setup.C93_transfer_sizes",
    "Verif.Setup.C93_ar_to_abar",
    "Verif.Setup.C93_bar_to_abar",
    "Verif.Setup.C93_abar_to_ar",
    "Verif.Setup.C93_abar_to_bar",
    "Verif.Setup.C93_setup_transfer",
    "Verif.Setup.C93_setup_conversions"
   ],
   "note": "for Rescue with twelve rounds, the order of secp256k1 and the two simulated fields of the code; the circuits of the model were also compared with the shipped keys (check/README.md)"
  },
  {
   "property": "C94",
   "status": "proved",
   "theorems": [
    "Verif.Setup.C94_representatives_chosen",
    "Verif.Setup.C94_domain",
    "Verif.Setup.C94_places_distinct",
    "Verif.Setup.C94_files",
    "Verif.Setup.C94_ar_to_abar",
    "Verif.Setup.C94_bar_to_abar",
    "Verif.Setup.C94_abar_to_ar",
    "Verif.Setup.C94_abar_to_bar",
    "Verif.Setup.C94_transfer"
   ],
   "note": "PLONK, setup, files and circuits are the models; assumed: correct multi-exponentiation, exponentiation and point encodings of the curve library, a complete proof of knowledge of the key pair (bulletproofs over secq256k1), signatures that verify"
  },
  {
   "property": "C95",
   "status": "partial",
   "theorems": [
    "Verif.Setup.C95_ar_to_abar_counterfeit_violated",
    "Verif.Setup.C95_bar_to_abar_counterfeit_violated",
    "Verif.Setup.C95_abar_to_ar_counterfeit_violated",
    "Verif.Setup.C95_abar_to_bar_counterfeit_violated",
    "Verif.Setup.C95_transfer_counterfeit_violated",
    "Verif.Setup.C95_ar_to_abar_backed_partial",
    "Verif.Setup.C95_bar_to_abar_backed_partial",
    "Verif.Setup.C95_abar_to_ar_backed_partial",
    "Verif.Setup.C95_abar_to_bar_backed_partial",
    "Verif.Setup.C95_transfer_backed_partial"
   ],
   "note": "violated: with the parameters loaded from the files of gen-params, the forger of C70 makes accepted notes of all five kinds with any commitments, amounts, nullifiers and roots. The _backed_partial theorems are the claim for a verifier that draws the last challenge after the opening proofs and reads four permutation values, and for provers that commit to polynomials whose coefficients do not depend on the secret: the note is backed by the assignment in the committed wires (up to explicit collisions, relations of generators and, for transfers, an assignment whose constant one is one), or it is refused outside of small sets of challenges and secrets."
  },
  {
   "property": "C96",
   "status": "partial",
   "theorems": [
    "Verif.Merkle.C96_view_shows_commit",
    "Verif.Merkle.C96_view_proofs",
    "Verif.Merkle.C96_view_without_pending_partial",
    "Verif.Merkle.C96_pending_violated",
    "Verif.Merkle.C96_depth_proof_violated",
    "Verif.Merkle.C96_get_leaf_violated"
   ],
   "note": "roots and proofs of full depth are those of the last commit in every state. Violated: the number of leaves and the presence of a leaf include pending additions, for which proofs are returned that do not verify; proofs for a smaller depth have twenty nodes and do not verify; get_leaf takes the internal key, as in C08."
  },
  {
   "property": "C97",
   "status": "proved",
   "theorems": [
    "Verif.Serde.C97_transfer_bytes",
    "Verif.Serde.C97_ar_to_abar_bytes",
    "Verif.Serde.C97_bar_to_abar_bytes",
    "Verif.Serde.C97_transfer_or_conversion",
    "Verif.Serde.C97_kind_of_conversion",
    "Verif.Serde.C97_kind_by_proof",
    "Verif.Serde.C97_transfer_approved",
    "Verif.Serde.C97_ar_to_abar_approved",
    "Verif.Serde.C97_bar_to_abar_approved"
   ],
   "note": "bincode 1.3 and rmp-serde 1.0 are modelled from their documented behaviour; assumed: injective encodings of points and scalars, signatures of a key verify only for messages it has signed, and that the ArToAbar bodies it has signed carry a PLONK proof with five wires"
  },
  {
   "property": "C98",
   "status": "partial",
   "theorems": [
    "Verif.Serde.C98_messagepack_numbers",
    "Verif.Serde.C98_messagepack_arrays",
    "Verif.Serde.C98_messagepack_strings",
    "Verif.Serde.C98_amount_text",
    "Verif.Serde.C98_transfer_messagepack",
    "Verif.Serde.C98_transfer_bincode_partial",
    "Verif.Serde.C98_transfer_bincode_violated",
    "Verif.Serde.C98_ar_to_abar",
    "Verif.Serde.C98_bar_to_abar",
    "Verif.Serde.C98_anonymous_transfer",
    "Verif.Serde.C98_abar_to_ar_partial",
    "Verif.Serde.C98_abar_to_bar_partial",
    "Verif.Serde.C98_hostile_note_violated"
   ],
   "note": "false as stated: bincode cannot read an owner memo (untagged enums), and a MessagePack memo with a blind share given as a byte string of another length than 32 panics; everything else is proved. The readers of bincode 1.3 and rmp-serde 1.0 are modelled from their documented behaviour"
  },
  {
   "property": "C99",
   "status": "proved",
   "theorems": [
    "Verif.Xfr.C99_body_made_iff",
    "Verif.Xfr.C99_note_made_iff",
    "Verif.Xfr.C99_made_and_accepted",
    "Verif.Xfr.C99_balanced_refused_violated"
   ],
   "note": "the condition is exact; C99_balanced_refused_violated shows that balance alone does not suffice (four witnesses). Assumed: the range prover succeeds for up to 128 values, the mixing prover for balanced lists of the same types (its circuit: C27), serialization and signing succeed"
  }
 ]
}