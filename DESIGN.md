# Formal model of zei: design and trusted base

The model is written in Lean 4 under `lean/Verif/`.  Rust source is read as text from `/repo`; nothing is built or executed.
Model definitions carry a comment that cites file and lines, and says where they simplify.

Contents: layout, conventions, trusted base, what is modelled, what is not, the properties one by one, disagreements between
code and property, how the theorems were tested.

## Layout

| directory | content |
|-----------|---------|
| `Merkle/` | accumulator: `Model` (code), `Spec` (list of leaves), `Props`, `Position`, `Capacity`, `View` (read-only tree) |
| `Xfr/` | ordinary transfers: `Model`, `Spec`, `Props`, `Sound`, `Supply`, `Complete`, `Batch`, `MultiSig`, `Tracing`; keys, records, memos, hybrid encryption |
| `Anon/` | anonymous transfers: circuits (`Circuit`, `MerkleCircuit`, `Mixing`, `Compare`, `Folding`, `Convert`), their theorems (`*Sound`, `*Run` = completeness, `*Uniform`, `*Props`), `Spend` = circuit and accumulator together, `Pool` = histories of a ledger, `PreCheck` and `Keys` = code outside the circuits |
| `Plonk/` | constraint system and gadgets: `Turbo` (code), `Sat` (satisfaction, soundness calculus), `Adv` (honest runs), gadgets |
| `SimFr/` | simulated field arithmetic, native and in the circuit |
| `Snark/`, `Poly/` | PLONK prover, verifier, indexer, helpers; polynomials, FFT, KZG |
| `Bulletproofs/` | the constraint systems given to `bulletproofs`: mixing, range, scalar multiplication |
| `Crypto/`, `Rescue/` | sigma protocols, ElGamal, credentials, delegated Schnorr, Jive, Rescue |
| `Algebra/` | generic powers, radix, multi-exponentiation, byte and limb helpers, Edwards curves, primality certificates |
| `Serde/` | bytes of notes: serde formats, derived serializers and deserializers |
| `Setup/` | parameters: byte format of commitment keys, files of verifier parameters, circuits made from default witnesses |

Specifications are in `Spec` files or `Spec` namespaces and do not mention the helpers of the model.  An `example` beside the
theorems shows that their hypotheses are met, over the field, hash and parameters of the code wherever these are concrete.
The `Examples` files apply the theorems of their directory to concrete data by name, discharging every hypothesis.

## Conventions

* `u64`, `usize`, ... are `Nat` with the overflow behaviour written out where the code can overflow.
* `Result` is `Option`, `Except` or `Res` (`Verif/Res.lean`: ok, error, panic); panics are values, never totalised away.
* `&mut self` methods return the new value.  Randomness and external calls are arguments.
* Prime fields are an arbitrary `Field F`; where numbers matter, `ZMod` of the actual modulus, whose primality is proved from
  Lucas certificates (BLS12-381, secq256k1 and Ristretto scalar fields).
* Groups are modules over the scalar field, pairings are bilinear maps.
* Random oracles are functions of the transcript; rewinding is two oracles that differ at the challenge.
* Circuits: a builder is a state transformer on the constraint system (`Build F = StateT (CS F) Option`).  `Sat cs w online`
  says that the assignment `w` meets every gate and every public input.  Soundness theorems quantify over all `w`; only the
  gates the code emits are available.  Completeness theorems say that the builder does not panic and that the values it stores
  meet the gates for the public values the verifier computes.  Uniformity theorems say that the gates do not depend on the
  witness, so that the keys made from the default witness serve for every one.
* Explicit extraction: builders return, besides what the code returns, the variables of the witness, and theorems read the
  witness from the assignment at these variables.  So no conclusion says merely that *some* opening of a commitment or
  hash exists, which would be true of every group element or compressing hash.  Likewise collisions are explicit
  computations from the data at hand, never "there is a collision".

## Trusted base

* Lean 4.33.0 kernel and the axioms `propext`, `Classical.choice`, `Quot.sound`.  No own axioms, no `sorry`, no
  `native_decide`, no `bv_decide`.  `decide +kernel` is used for primality certificates, constants, the shipped keys of C102 and examples only.
* Mathlib definitions used in statements (`ZMod`, `Polynomial`, `Module`, `List`, sums).
* The transcription from Rust to Lean, by hand.
* What is assumed of external code is a hypothesis or structure in the statement: signatures, AES-GCM, Diffie-Hellman,
  `bulletproofs` range and R1CS proofs (completeness; extraction), PLONK proofs in C77 and C80 (`Knows`, `Completes`), pairing bilinearity, correctness of the multi-exponentiation
  (`MsmCorrect`; the function of the code is C69 and meets it only outside exceptional pairs), database commit atomic.
* The formats of bincode 1.3 (default options) and rmp-serde 1.0 in C97, C98 and C101, and of serde_json 1.0 and base64 0.13 in C106 and C107, are written from their documentation, not from their source,
  which is not available here; the shipped parameter files have the layout that C101 describes.  Elsewhere serde is a codec with a round-trip law.

## What is modelled

| file | modelled | left out |
|------|----------|----------|
| accumulators/src/merkle_tree.rs | all of `PersistentMerkleTree` and `ImmutablePersistentMerkleTree`, `Path`, `Proof`, `verify`; the store as versioned map with session cache | `storage` crate itself |
| api/src/xfr/mod.rs, proofs.rs, structs.rs, asset_record.rs, asset_mixer.rs | note generation and verification, balance checks, record types, record building and opening, the constructors of input and output records, tracing grouping, batch verification | proof objects of `bulletproofs` are abstract |
| api/src/xfr/sig.rs, asset_tracer.rs, serialization.rs | keys and their bytes, signatures, multi-signatures, tracer memos, old and new owner memos | the curve libraries |
| api/src/anon_xfr/*.rs | all circuits (transfer, four conversions, address folding), `check_asset_amount`, `check_roots`, generation and verification of conversion notes, batch verification, `parse_memo`, commitments, nullifiers, keys | serde outside C97, C98, C106 and C107 |
| api/src/anon_creds.rs, crypto/src/anon_creds.rs, confidential_anon_creds.rs | key, signature, commitment, reveal, verify; encryption of attributes | |
| crypto/src/basic/*.rs | matrix sigma, Chaum-Pedersen, Pedersen-ElGamal, ElGamal, hybrid encryption, Rescue, Jive | |
| crypto/src/bulletproofs/*.rs | the constraints added to the prover and verifier systems | the proof system |
| crypto/src/delegated_schnorr.rs, field_simulation.rs | protocol, state commitment, simulated field | |
| plonk/src/plonk/constraint_system/** | constraint system, all gadgets | `ecc.rs` constants are those of Jubjub |
| plonk/src/plonk/{prover,verifier,indexer,helpers,transcript}.rs | all | byte encodings of transcripts |
| plonk/src/poly_commit/*.rs | polynomials, FFT, KZG, batch opening | |
| algebra/src/traits.rs, utils.rs, serialization.rs, parts of curve files | default `pow`, `multi_exp`, recoding, byte and limb helpers, encodings of scalars and points, serde visitors, constants, generators | curve arithmetic (arkworks, curve25519-dalek) |

Not modelled: the reference string and Lagrange bases that are shipped (parameters of the model; the files with keys are those of C102), the derivation of
Bulletproof generators, benches, tests, error types, derived serde implementations outside C97, C98, C101, C106 and C107 (a codec with a round-trip law).

## The properties

| id | what is modelled | how proved |
|----|------------------|-----------|
| C01 | `add_commitment_hash` | invariant over operation sequences: uid = number of additions before |
| C02 | `generate_proof`, `verify` | refinement to the list of leaves; induction on levels |
| C03 | `get_root` | refinement to `specRoot`, the ternary tree over the leaves |
| C04 | `verify` | walk down two paths with an explicit collision extractor; position determined |
| C05, C06 | committed versions, reopening, crash | invariant over sequences with crashes |
| C07, C08, C09, C10 | depth proofs, `get_leaf`, capacity, refused commit | code violates the full claims: negation by witness plus `_partial` |
| C11 | node keys | heap arithmetic, induction on levels |
| C12, C13, C15 | plain transfers | equivalence with per-asset integer sums; supply invariant over sequences of notes |
| C14 | `XfrType`, proof kinds | case analysis over all records |
| C16 | amounts in two 32-bit limbs, range proof of the difference | integer arithmetic, binding relation explicit; equality violated |
| C17, C18 | whole note | completeness by composition; batch = conjunction by induction |
| C19 | multi-signature | permutation lemmas on sorted keys |
| C20, C21, C38, C54, C66 | memos | round trips; hostile inputs that panic are exhibited |
| C22, C64 | word, byte, limb helpers | arithmetic, induction on lists; two helpers violated |
| C23, C24, C56 | key and signature bytes | round trip, injectivity; canonicity violated |
| C25 | tracing policies | simulation between prover and verifier grouping |
| C26, C27 | mixing constraints | permutation argument as polynomial identity, merge chain induction; length one and unequal lengths violated |
| C28 | 64-bit range constraints | bit decomposition |
| C29 | scalar multiplication constraints | exact characterisation of satisfiability; violated (slopes unconstrained) |
| C30, C31, C32 | `pow`, recoding, Pippenger | loop invariants; long exponents, window zero and 800 terms violated |
| C33, C34 | matrix sigma protocol | linear algebra; random row combination counted |
| C35, C36 | equality proofs, aggregation | linear algebra, special soundness, counting of bad coefficients |
| C37 | ElGamal | algebra; short inputs panic |
| C39, C40, C41 | credentials | bilinear algebra, special soundness; identity commitment violated |
| C42, C43 | Rescue, Jive | bijectivity by composition; trace equations determine the output. `Rescue/Eval.lean` evaluates the permutation in the kernel: the test vectors of rescue.rs:364-395 hold of the model, which ties its constants to the code |
| C44, C48 | gates, permutation | evaluation lemma; cycles of the permutation = variables |
| C45, C46, C49, C50 | gadgets | soundness, completeness, uniformity in any surrounding circuit |
| C47 | constants | violated: negation; `_partial` |
| C51 | mixing circuit | per-type sums; violated with `one_var = 0` |
| C52, C63 | checks outside the circuit | equivalence; two violations |
| C53 | Merkle path circuit | induction over the path |
| C55 | commitments, nullifiers | explicit collision extraction |
| C57, C58 | coefficient lists, FFT | homomorphism to Mathlib polynomials, butterfly induction |
| C59 | KZG | divisibility, extraction of the secret from two values |
| C60 | PLONK helpers | polynomial identities |
| C61 | simulated field | base-`2^bits` representation, grouped carries |
| C62 | secret key comparison circuit | lexicographic induction over bits |
| C65 | delegated Schnorr, state commitment | special soundness; sponge injectivity up to collision |
| C67 | whole transfer circuit | composition of gadgets, induction over records |
| C68 | C67 with the accumulator | C04 extractor along the path |
| C69 | multi-exponentiation of commitments | invariant of the bucket reduction; roots of explicit polynomials count the bad secrets; violated for equal or opposite neighbours |
| C70, C71 | PLONK | two forgeries; completeness through the quotient identity; soundness of the repaired order for algebraic provers, with the assignment that their wires hold; runs are monotone in the multi-exponentiation, so completeness carries over to that of C69 |
| C72 | address folding circuit | C61 equation modulo the group order, C65 binding, two-by-three challenges |
| C73-C76 | the circuits of the four conversions | as C67/C68/C72 |
| C77 | verifiers of the four conversions, with delegated Schnorr proof, circuit and accumulator | composition of C65, C68, C73-C76; four accepted runs for confidential records; `Knows` stands for the proof system |
| C78, C79, C81 | the same verifiers, single and batch, with panics | case analysis, induction on lists; violations exhibited |
| C80 | generators of the four notes | completeness of circuits composed with uniformity; `Completes`, `FoldProver.Complete` stand for the proof systems |
| C82 | transcripts of all protocols | lists of messages are cut in one way only; three omissions, two exploited here `C82_note_labels`: the transcripts of the proofs of anonymous notes begin differently for every kind of note and number of records (`Anon/Labels.lean`), and with the PLONK verifier of the model the verdict on a note depends on the hash only at transcripts of its own kind (`Setup/LiveLabels.lean`) |
| C83 | verifier of transfer notes with folding proof, circuit and accumulator | composition of C67, C68, C72; violations by constructed notes |
| C84 | generator of transfer notes | exact condition of `init`; completeness of the circuit composed with uniformity |
| C85 | scalars as bytes, limbs, integers; inverse; generators and nonresidues | arithmetic of digits in base 256 and 2^64; Lucas certificates for the orders, powers for generators; violations by witnesses |
| C86 | points, X25519 keys, serde | compression is a parameter with `Laws`; exact set of accepted strings |
| C87 | `AssetType::as_scalar` | digits; justifies the single number `asNat` that the models of the conversions use for a type in two fields |
| C88 | commitment keys as bytes, Lagrange bases, prover and verifier parameters, generation and loading of files, circuits of setup.rs | lengths and digits for the bytes; loading composed with C60 and C71; equal keys from the uniformity theorems |
| C89 | PLONK prover with its random values as data (`Rand`), against a simulator that has no witness | the prover is described by polynomials at the secret; the map from random values to what the proof shows is a bijection (2-point Vandermonde for hidden polynomials, telescoping sum for the parts of the quotient) |
| C90 | the provers of the sigma protocols with their blinding scalars as data (`Crypto/Hiding.lean`) | the blinding scalars are solved from an accepted proof and a witness; `∃!` for each accepted proof and each witness |
| C91 | `open_comm`, `commit`, `confidential_open_comm` with all samples as data (`Crypto/CredsHiding.lean`) | from an accepted presentation and any valid credential the randomizer is solved in the group of prime order, the blindings from the responses; non-degeneracy of the pairing gives the proof commitment |
| C92 | `sample_blind_asset_record` over any hash function (`Xfr/RecordHiding.lean`) | the three blinding factors are solved from the three commitments; uniqueness by the hash that has given values at the shared point |
| C93 | the five circuits, counted (`Plonk/Cost.lean`, `Anon/Size.lean`, `Setup/Size.lean`) | a cost (gates, variables, public positions) for every builder, composed like the builders; closed forms by algebra; existence of setup's circuits from completeness and uniformity |
| C94 | setup, files, circuits, PLONK prover and verifier together, over the scalar field of BLS12-381 (`Setup/Real.lean`, `Setup/Live.lean`, hypotheses met in `Setup/LiveExamples.lean`) | order of the roots of unity and of the shipped representatives by kernel computation; C71 instantiated for every circuit of setup through C93 (sizes), well-formedness and uniformity; the set of bad challenges bounded by the zeros of the denominators |
| C95 | the same with a forger in place of the prover (`Setup/Counterfeit.lean`), and with a verifier that draws `u` last (`Setup/Backed.lean`); the forger and the repaired verifier are not code of the repository | the forgeries of C70 instantiated for the circuits and files of setup; for the repaired order, `C70_extracts_late_u_partial` with the assignment read off the committed wires in place of the extractor of C77 and C83 |
| C96 | `ImmutablePersistentMerkleTree` on the modelled store (`Merkle/View.lean`) | the simulation of C01-C06; proof nodes read from a version while presence is asked of the session |
| C97 | bincode and MessagePack as serde formats, derived serializers of the bodies generic in the format (`Serde/`) | every encoder is prefix-unique: `enc a ++ r = enc a' ++ r'` gives `a = a'` and `r = r'`; composed field by field. Kinds are told apart by the first byte, the kind of record, or the number of wires of the proof |
| C98 | readers of bincode and MessagePack as serde inputs, derived deserializers of all notes, `OwnerMemo`'s hand-written `visit_seq` (`Serde/Read.lean` to `Serde/Notes.lean`) | every reader undoes its writer and stops where it ended, composed field by field; for the memo the buffered values of the untagged enums. `Serde/RmpPieces.lean` says exactly which bytes are taken for numbers, arrays and strings. `Serde/AmountText.lean` does so for the texts of public amounts. False for notes with an owner memo in bincode and for hostile memos (see Disagreements) |
| C99 | `gen_xfr_note` and what it calls, from the model of C13 to C17 (`Xfr/Made.lean`) | success of every stage is characterised: the power of two that fits 128, the `u64` sums, the lists given to the equality and mixing provers, the groups of tracing proofs; the six kinds of transfers by C14; acceptance by C17. `C99_balanced_refused_violated`: four balanced transfers that cannot be made |
| C100 | a ledger of commitments and nullifiers that takes the three kinds of notes the verifiers of C77 and C83 accept (`Anon/Pool.lean`); the ledger itself is not in /repo, its rules are those the library expects (unique nullifiers, roots of committed versions) | induction over the run: every stored commitment has the opening the extractor reads, every accepted spend is of a stored position (C68), different nullifiers are of different positions; then the units are counted. Partial: the constant one of the transfer circuit and the extractor are hypotheses. `C100_inflation_violated`: without the constant one, 1 unit in and 1000 out; `C100_paid_from_nothing_violated`: with the proof system and parameters of the code, nothing in and anything out |
| C101 | derived serializers and readers of `VerifierParams`, commitment keys, verifier keys and constraint systems in bincode, the table of transfer keys (`Setup/FileCodec.lean`, `Setup/Files.lean`) | every reader undoes its writer whatever follows, and fails on every proper prefix because what it reads does not depend on what follows; lengths bounded so that the writers succeed; composed with C88 and C94. False for the table (see Disagreements) |
| C102 | the shipped files with the keys of the verifier as bytes (`Setup/Shipped*.lean`; `check/shipped.py` compares them with /repo) | the reader of C101 and a test of the result run in the kernel on all 40 keys; the test is proved to imply agreement with the key of setup, with C93 for the circuits and the derivative of `X^n - 1` for the Lagrange constants. Partial: commitments are not compared |
| C103 | the ledger of C100 with two more steps, conversions from and to confidential records (`Anon/PoolConf.lean`); their amounts are those of openings of the two commitments that the verifiers compute from a record (`Whole`) | the steps of C100 are reused (`step_makes`, `step_accounts`); a confidential deposit either has a commitment that nobody can spend (padding word not zero) or the amount of the record (`C77_bar_to_abar_whole`); a confidential withdrawal is of a stored position with the amount of the new record (`C77_abar_to_bar_whole`). The inequality is strict where records are lost. Partial for the reasons of C100. `PoolConfExamples.lean`: 7 units in as a confidential record, 5 as a transparent one, 5 out as a confidential one |
| C104 | a ledger of ordinary records with accepted notes of all kinds as steps (`Xfr/Supply.lean`); a record holds an amount (of the recombined commitment `low + 2^32 high`: the mixing proof ranges over that only) and a type; outputs enter with what the extractors find; a mixing proof is extracted to openings and an assignment of the constraints of `Bulletproofs/Mix.lean` | one lemma per proof (`amounts_step`, `types_step`, `mix_step`), case analysis over the five kinds (`body_step`), induction over the history; `Ledger.run`: every history of bare records can be told with holdings. Partial since false: `C104_money_from_nothing_violated` (generic, from C26) and `C104_supply_violated` (a whole note in a system where all assumptions hold and none can be broken, `SupplyExamples.lean`) |
| C105 | the ledgers of C103 and C104 as one (`Anon/System.lean`): a conversion into the pool consumes an ordinary record, one out of it adds one; `Joined`: both halves use the same generators, point encoding and numbers of types, the scalars of the one being the residues of the other | the ordinary side by induction over the history (`system_sides`): transfers by `body_step` of C104, records at the border by `border_in` and `border_out` (a holding and an opening of the same commitments agree, or the generators are related), 64 bits of what comes out from an invariant of the pool (`makes_small`); added to the accounts of C103. A run over the parameters of the code: `SystemExamples.lean` |
| C106 | texts and trees of JSON with a parser (`Serde/JsonText.lean`), base64 in the URL alphabet (`Base64.lean`), codecs as serde derives them for a human readable format with objects, arrays, enums, options and skipped members (`Json.lean`), the hand-written reader of owner memos on JSON (`JsonMemo.lean`, with `visit_map` and `visit_seq` of C66), all notes (`JsonNotes.lean`) | the parser reads every text of a tree, with any spaces, by mutual induction (`read_spec`); a codec is good when it reads what it writes and reads the same after members are permuted at any depth; goodness of structs by exchange of adjacent steps (`rec_good_cons`, `fold_perm`), of memos from C66. The document of the compatibility test is read in `JsonExamples.lean` |
| C107 | the types that wallets, tracers and issuers keep, with the codecs of C106 (`Serde/JsonWallet.lean`): key pairs of `Xfr/Keys.lean`, anonymous key pairs, the three pairs of a tracer, policies, opened records, templates, credentials, anonymous records with place in the tree | goodness of each codec from those of its members; key pairs by C23, tracer keys as `generate` makes them with the clamping of X25519. Negations on a record of two plain numbers and on pairs with any foreign public key |
| C108 | the wallet's way from a published record to an input: `from_abar`, `mt_leaf_info` with the proof of `generate_proof`, `build` (`Anon/Receive.lean`, over the models of C54, C03, C84, C80) | recovery by C54 and the paths of C03/C05 at any later history; the notes by C84 and C80, whose outputs satisfy the hypothesis (`Addressed`) of the next note. The examples follow seven units from a deposit through a transfer to a payment out of five, and a confidential record in and out. Records of dishonest senders are outside (C83) |
| C109 | the five constructors of `AssetRecord`, `build_record_input_from_template` and the loop over policies of `sample_blind_asset_record` (`Xfr/Inputs.lean`), over the models of records and owner memos (C20), tracer memos (C62) and transfers (C17, C99); a credential is a value with the three functions the constructors call | each constructor is shown to make a record that meets the hypotheses of C99 (well formed, memos matching, identity proofs accepted); the note by `C99_made_and_accepted`; outputs satisfy `AddressedTo`, the hypothesis on inputs of the next note. The example pays 2^40 hidden units under an asset tracing and an identity tracing policy, and both tracers read their part. `C109_foreign_issuer_violated`: the constructor for outputs does not look at the issuer |
| C110 | the constructors of C109 with the credentials of `crypto/src/anon_creds.rs` and `confidential_anon_creds.rs` (C39-C41) in place of an abstract one, `ac_confidential_open_commitment` (`Xfr/Identity.lean`); assumed is that the verifier of a note calls `ac_confidential_verify` with issuer, map and key of the policy | a granted credential satisfies `CredOk` by `C41_complete_partial`, so that C109 applies; the constructor succeeds exactly if issuers and lengths match; for all provers, `C25_accepted_identities` gives the two accepted proofs, `C41_special_sound_partial` the signature, and `C21_decrypt_consistent` that the answer of the tracer is what was encrypted. `C110_default_commitment_violated`: for `ACCommitment::default()` openings to any attributes are accepted |
| C111 | the wallet of C108 (`Anon/Receive.lean`) with the keys, circuits and files of C94 (`Setup/Live.lean`) in `Setup/LiveReceive.lean`; nothing new is modelled | C94 gives the note and its acceptance, `C108_received` and `C108_all_received` meet its hypotheses on openings and paths, `outs_addressed` and `stored_last` bring the records of the note back to the hypothesis on inputs. The examples go from a deposit through a transfer to a payment, and from a confidential record to a confidential record |
| C112 | the readers of C106; the other program is a walk through the tree by names and positions (`Json.at`, `Serde/JsonShows.lean`), it knows nothing of the codecs and takes the first member of a name | a struct that was read took each field from the only member of its name (`fold_cons`: a second one is refused, other names are ignored), the rest of the fields are read as if the first were not declared, so every field is reached by induction over the declaration (`seen_first`, `seen_rest`); enums have one member. The example is a document with foreign members and the amount `+05`. Range, tracing, identity, Schnorr, folding and Plonk proofs and tracing memos are looked into in `Serde/JsonParts.lean`, with the two views of C113 |
| C113 | the readers and writers of C107; one description of every kind of document by names (`KeyPairIn`, `CoinIn` and so on, `Serde/JsonKeeps.lean`), looked at in two ways: `reading` (what stands under a name, in any document that is accepted) and `writing` (every name is there, with the exact text) | as C112, `seen_first` and `seen_rest` over the declarations, `List.Forall₂` for arrays, and for what is written by evaluation of the writers on variables |
| C114 | the reader of C106 (`parseJson`) against the grammar of RFC 8259 as a relation of its own between trees and texts (`Document`, `JText`, `Chars`, `Number` in `Serde/JsonGrammar.lean`; `\u` escapes by Lean's `String.utf8EncodeChar`) | both directions by induction over the steps of the reader (`read_grammar`, `grammar_read`); the notes follow in `Serde/JsonForeign.lean` with the laws of the codecs of C106. Numbers with sign, fraction or exponent and pairs of surrogate escapes, which serde_json accepts, are left out of both |
| C115 | the readers of bincode of C98 and the scalars of C85 (`Serde/Exact.lean`, transfers in `Serde/ExactBody.lean`, public amounts and notes out of the pool in `Serde/ExactSpelled.lean`; MessagePack in `Serde/ExactTransfer.lean`) | the readers are inverted piece by piece: what is read as a value is what is written for it, given codecs that accept only what they write; `checked` is such a codec for every codec. With public amounts, the texts of these are the only place where two strings of one note can differ (`C115_transfer_spellings_partial`); `C115_transfer_texts_partial` says exactly which strings are read as a transfer without memos. `C115_anonymous_transfer_pieces_partial` (`Serde/ExactPieces.lean`) has no condition on the codecs: it says exactly which strings are read as an anonymous transfer, in terms of the byte strings the codecs take for its scalars, points and proofs; for the scalars of the library these are the strings of at most 32 bytes with the right value modulo the order (`C115_scalar_piece_partial`). `Serde/ExactPoolPieces.lean` says the same for the four notes into the pool and out of it; there the texts of public amounts come in as decimal numbers. `Serde/ExactXfrPieces.lean` does so for ordinary transfers. With `BLSScalar::from_bytes` each note of the pool has a second string, in which the order is added to every scalar (see Disagreements). MessagePack has several heads for one length and several spellings for one number by its specification (`C98_messagepack_numbers`), so there is no positive theorem for it; the violations are shown in it for the notes which bincode cannot read (those with memos) |

Status and theorem names are in `MANIFEST.json`.

## Disagreements between code and property

For each of these the negation is proved with a concrete witness and the part that does hold is a `_partial` theorem (names in
`MANIFEST.json`).

Accumulator

* C07: depth-limited queries accept the id `3^depth` (off by one in the bound); the proof handed out does not verify.
* C08: `get_leaf` uses the leaf uid as an internal node key and so returns the root (or another node) for it.
* C96: the read-only tree counts pending leaves and gives proofs for them that do not verify (`exists` and the entry count are
  read from the session, siblings and root from the version); its proofs for a smaller depth always have twenty nodes
  (`keys[0..TREE_DEPTH]`) and do not verify either.
* C09: no capacity check; the `3^20 + 1`-th addition is accepted and overwrites the geometry.
* C10: when the database refuses a commit, the in-memory entry counter keeps the uncommitted entries.

Ordinary transfers

* C16: confidential single-asset transfers prove only that `sum in - sum out` is in `[0, 2^64)`: burning is accepted.
* C20: for an address key, building a record with a hidden field panics (`as_compressed_point`, `unwrap`).  Opening never
  compares the decrypted values with the commitments, and a short lock makes a secp256k1 receiver panic.
* C23, C24: key type bytes above two are taken for Ed25519; padding bytes are ignored; bare 32/64-byte legacy encodings are
  accepted.  So encodings are not canonical.
* C26: the mixing constraints check nothing for a single input or a single output; with more outputs than inputs the padding
  with zero records lets value appear, with more inputs than outputs it may disappear.
* C104: because of C26 a note with a mixing proof, one input of one unit and outputs of any amounts and types passes full
  verification (`C104_money_from_nothing_violated`, `C104_supply_violated`).
* C29: the slopes in the scalar multiplication constraints are free, and the y coordinate of the public key is not used: every
  public key can be proved.

Anonymous transfers

* C47: variables 0 and 1 are never tied to the constants 0 and 1 by a gate; every gadget that uses them is sound only under the
  hypotheses `w 0 = 0` and `w 1 = 1`.
* C51: `one_var` is used by `is_equal_or_not_equal` and `asset_mixing` only and never constrained.  With `one_var = 0` every
  equality test of the mixing gates returns zero, so one input and one output of the fee type with arbitrary amounts satisfy
  the circuit (`C51_mixing_unsound`).  Variable zero is forced to zero by the mixing gates.  The circuit is also stricter than
  `check_asset_amount`: every non-fee input type must appear among the outputs.
* C67: inherits the gap of C51, with or without the address folding circuit (`C67_transfer_unsound`,
  `C67_transfer_folding_unsound`).  With `one_var = 1` the circuit is sound; `zero_var = 0` follows from the mixing gates.
* C68: leaves and inner nodes are hashed by the same function without domain separation (`C68_leaf_is_node_hash`); the theorem
  needs the path length 20, which the verifier fixes by its circuit.
* C52: `check_asset_amount` iterates over the types that occur; a fee is not demanded from a transfer without any record of the
  fee type (`C52_fee_skipped`).  The circuit of the proof demands it (C51).
* C63: batch verification zips its argument lists; notes beyond the shortest list are accepted unseen.

Conversions

* C77: the theorems assume an extractor for the PLONK proofs (`Knows`); by C70 the verifier of the code has none.  The halves of the
  amount of a new confidential record are only checked in the combination `lo + 2^32 hi`: with every accepted note, notes with
  other halves are accepted (`C77_halves_unchecked`).  An owner can so create a record that no later range proof accepts.
* C78: batch verifiers of three conversions zip notes with roots, keys and hashes; notes beyond the shortest list are accepted
  unseen.
* C79: a note with fewer than three folding commitments, or whose delegated Schnorr proofs have the wrong length, makes the
  verifier panic (indexing, `assert_eq!`).
* C81: `verify_bar_to_abar_note` takes the key as an argument and does not compare it with the key of the record.

Transfer notes

* C83: the missing constant (C47, C67) carries through to the verifier: an owner of one record of the fee type makes an accepted
  note with arbitrary outputs (`C83_unsound`).
* C83: the verifier does not compare the numbers of nullifiers and outputs with those the parameters were made for, only their
  sum enters the length of the public inputs.  A note with one nullifier more and one output less moves the root of the ledger
  to a place where the circuit expects a commitment.  Inner nodes of the tree and commitments are hashes of the same form
  (three words and zero padding), so the root of a tree with at most `3^18` leaves is a commitment to the amount 0, and nothing has
  to be in the tree (`C83_counts_unchecked`); this also works with the constant one.
* C83: one note may spend the same record twice (`C83_same_record_twice`); the ledger has to compare the nullifiers of a note
  with each other (`C83_distinct_records`).  Memos and the root version are not read by the verifier (`C83_memos_ignored`); they
  are bound only if the caller's hash covers them.
* C84: `init_anon_xfr_note` accepts transfers without an input of the fee type, with fee zero, and types whose amounts are all
  zero on one side only; the circuit refuses them (`C84_fee_type_missing`).

PLONK

* C70: (A) `perms_eval_zeta` of a proof may be longer than the number of permutation commitments; the surplus is zipped away
  in one place and used in another, so anybody can compute accepted proofs for every system.  (B) The challenge that separates
  the two openings is drawn before the opening proofs are sent, which allows forgeries of proper shape.  Proofs with missing
  values make the verifier panic.  With the challenge drawn last, `C70_extracts_late_u_partial` and
  `C70_sound_late_u_partial`.
* C95: consequently, with the shipped parameters, anybody makes accepted notes of all five kinds that say whatever they like: a
  transparent record of one unit becomes a commitment to 2^64 - 1 units, any amount is paid out against any root
  (`C95_*_counterfeit_violated`).  The notes are sound for the repaired order (`C95_*_backed_partial`).
* C60: `choose_ks` does not check that the cosets are disjoint (`C60_choose_ks_cosets_may_meet`).  One of the selector
  commitments (`cm_qb`) is not absorbed into the transcript.

Other

* C30: `pow` of BLS12-381, secp256k1 and secq256k1 scalars copies the exponent into 4 or 5 limbs and panics on longer
  exponents, also when the surplus limbs are zero.
* C31: window size zero passes `assert!(w <= 7)` but makes the recoding loop endless.
* C32: from 800 terms on `pippenger` chooses window 8, which the recoding refuses by its assertion: panic.  C33, C39 and C41
  inherit this for large relations and keys.
* C40, C41: the identity as commitment is accepted for any attributes under any key; surplus revealed attributes at the end
  are not looked at.  C39: a credential with more attributes than the key makes the prover panic at a "safe unwrap".
* C82: the attributes shown in a presentation are not absorbed before the challenge.  A holder who shifts the first message by
  `Σ δᵢ·Yᵢ` can afterwards claim the attributes `aᵢ + δᵢ/c` (`C82_revealed_not_bound`); so C40 does not hold for attributes that
  are arbitrary scalars.  With 32-bit attributes (api crate) the claimed values are out of range.  `batch_verify` draws its
  coefficient without absorbing commitments or values: the honest proof is accepted for other values
  (`C82_batch_values_not_bound`).  PLONK: `cm_qb` and the opening witnesses are not absorbed (C70).
* C69: buckets of more than sixteen points are reduced by pairwise affine additions without the cases of equal or opposite
  points: 32 equal bases with scalar one give points off the curve (`C69_equal_points`), opposite bases a wrong point on it
  (`C69_opposite_points`).
* C43: `ALPHA` is declared 7, `get_alpha_inv` inverts 5.
* C85: decoding of scalars takes shorter strings and unreduced ones, so a scalar has several encodings.  Ristretto scalars are
  not even reduced: the value is right modulo the order, but `==` compares bytes, so equal values can be unequal
  (`C85_ristretto_equality_violated`).  `From<&BigUint> for RistrettoScalar` slices 32 of the minimal little-endian bytes and
  panics for residues below `2^248` (`C85_ristretto_integers_violated`).  The inverse of zero is `Ok(0)` for Ristretto
  (`C85_ristretto_inv_violated`), an error for the other types.
* C86: bytes after an arkworks point are ignored; the Ristretto decoders unwrap a slice conversion and panic on every length
  other than 32, through every serde format.
* C88: `from_unchecked_bytes` checks only that eight bytes are there, so a commitment key cut later panics
  (`C88_key_panics_violated`; with all bytes present it never does, `C88_key_no_panic_partial`).  `VerifierParams::load` with zero
  inputs or outputs underflows an index and panics, where more than six give an error (`C88_load_zero_violated`).
* C101: the loader reads the common part of the transfer keys with `?` but unwraps the table (setup.rs:420), so that a table cut off
  anywhere panics (`C101_cut_table_violated`), where all other files give an error.
* C98: `OwnerMemo::visit_seq` (structs.rs:783-813) reads `#[serde(untagged)]` enums (702-721), which ask the format for
  `deserialize_any`; bincode does not offer it.  So a transfer note with an owner memo, and every note of `gen_abar_to_bar_note`,
  written with bincode cannot be read back (`C98_transfer_bincode_violated`, second part of `C98_abar_to_bar_partial`); MessagePack
  works.  Nothing in /repo reads notes with bincode, but it signs bodies with it and notes derive both traits.  As MessagePack, a memo
  whose blind share is given as a byte string of another length than 32 panics in `from_slice` (`C98_hostile_note_violated`).
* C106: the same in JSON: `{"body":{"owners_memos":[{"blind_share":"AA=="}]}}` panics the reader of transfer notes in `from_slice`
  (called for `next_value` in structs.rs:834), before the rest of the note is looked at (`C106_hostile_violated`).
* C115: the bytes of a note can be changed by anyone without changing the note.  `BLSScalar::from_bytes` (algebra/src/bls12_381.rs:309-316)
  reduces by the order, so the nullifiers, commitments and the root of every anonymous transfer can be spelled as the number plus the
  order, in the same 32 bytes (`C115_anonymous_transfer_violated`); the same for the notes that lead into the pool
  (`C115_into_pool_violated`).  A public amount is read with `u64::from_str`, which takes a plus sign and leading zeros
  (`C115_public_amount_violated`), so every transfer with a public amount has a second MessagePack string (`C115_transfer_violated`).  Notes
  that lead out of the pool have one as well (`C115_out_of_pool_violated`).
  `SECQ256K1G1::from_compressed_bytes` (algebra/src/secq256k1.rs:345-355) drops what follows a point, and serde gives it the whole field, so
  anyone can add any number of bytes of their own choice to a note behind its first folding commitment; it is read as before
  (`C115_padding_violated`, and `C115_padding_out_violated` for the notes out of the pool, in `Serde/ExactPadding.lean`).
  A node must compare decoded nullifiers, never their bytes, and must not identify notes by the hash of
  the bytes it received.
* C107: `Deserialize` of `XfrKeyPair`, `AXfrKeyPair` and `AssetTracerKeyPair` is derived and takes any two halves: a pair whose public key
  is not that of its secret key is read without error (`C107_key_pair_violated`, `C107_anon_key_pair_violated`,
  `C107_tracer_keys_violated`).  The same for `OpenAssetRecord`: a record of five units that claims to open to six is read
  (`C107_open_record_violated`).
* C109: `from_template_with_identity_tracing` (api/src/xfr/asset_record.rs:254-286) takes a credential of any issuer, where the constructor
  for inputs (l.188-190) answers with an error: the output record and the note are made, and every verifier that holds the policy refuses
  the note (`C109_foreign_issuer_violated`).
* C110: a verifier that is given the commitment of two identity elements (`ACCommitment::default()`) for a payer accepts identity proofs for
  any attributes, and the tracer reads these (`C110_default_commitment_violated`, from `C41_identity_commitment_accepted`).
* C99: not every balanced transfer can be made (`C99_balanced_refused_violated`). With one asset type and a hidden amount,
  `gen_range_proof` adds the amounts as `u64` (proofs.rs:507-509) although the balance was checked with `i128` (mod.rs:404-445): a total of
  `2^64` panics in a build with overflow checks (in a release build both sums wrap and the transfer is made). 64 or more outputs are refused
  (proofs.rs:499-501). A zero amount of a type that occurs on one side only is balanced, yet refused by `prove_asset_mixing`; and a single
  record of a hidden type, worth nothing, without outputs, is refused by the equality prover.
* C100: because the circuit of anonymous transfers does not fix its constant one (C67, C83), a ledger that follows all rules can be made to
  pay out more than was put in (`C100_inflation_violated`: deposit of 1, accepted transfer to a record of 1000, accepted withdrawal of 1000).
  With the forger of C70 and the parameters as shipped, the empty ledger pays out any list of records (`C100_paid_from_nothing_violated`).
* C64: `SECP256K1Scalar::get_little_endian_u64` reads `a[24..]` of a 40-byte representative as eight bytes and panics for every
  scalar; `min_greater_equal_power_of_two` saturates to `u32::MAX` above `2^31`.

Weaknesses that do not contradict a property as stated

* Panics on hostile input: tracer memo with a plaintext length not divisible by four (C21), short ElGamal bytes (C37), point of
  wrong length in an old owner memo (C66), length assertions in C36 and C65, batch of fewer than two commitments in C35.
* `sigma_verify` does not check the number of responses (C34 states the lengths).
* The two halves of a decoded anonymous key pair are never compared (C56); the secret is reduced modulo the
  group order, so a small secret has two encodings (`C56_pair_bytes_malleable`).
* Polynomials: `is_zero` panics on an empty vector; division panics exactly for an empty divisor or a zero leading coefficient
  (C57); FFT with more coefficients than points panics or returns too many values (C58).
* KZG: batch verification zips values and commitments (`C59_batch_length_unchecked`); with a challenge known in advance it can
  be forged (`C59_known_challenge_forges`, used by C70).
* C61: `alloc_input` adds no constraint; `From<BigUint>` keeps a value beyond its limbs; `alloc_witness_bounded_total_bits` with
  256 bits labels the result strict.
* C65: the commitment of an empty state panics.
* C71: for at most `5(n-1)` values of `gamma` the honest prover meets a division by zero.
* C72: the circuit forces variable zero unless all key scalars are zero; coordinates need not be reduced modulo the field order.
* C73, C75: these circuits do not force variable zero.  Commitments made with another value can never be opened (up to a
  collision), so the owner only hurts themselves.

## Testing the theorems

`seeded/LOG.jsonl` lists wrong programs that were tried: the model edited as a realistic bug would, and which theorems then
failed.  Where a theorem survived an edit that makes its English claim false, it was tightened and the entry says so.

## Comparison with the shipped keys

The circuits are transcribed by hand.  As a test of this transcription (no part of the proofs), the circuits of the model were
evaluated and their selector and permutation polynomials committed to with the reference string in `/repo/api/parameters`, by a
separate Python program.  For the four conversions and all 36 transfers the results are equal to the shipped verifier keys: size,
number of variables, positions of public inputs, 13 selector commitments, commitment to the boolean selector, 5 permutation
commitments.  So the gates and wires of the model are those of the code, one by one.  Scripts and details: `check/`.
