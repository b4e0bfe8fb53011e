import Verif.Serde.JsonKeeps
import Verif.Serde.WalletExamples

/-!
C113 on concrete documents.
-/

namespace Verif.Serde

open Verif.Xfr Verif.Anon Verif.SimFr

/-- C113: a document from elsewhere, in the other order and with a member that the library does not know -/
example : RandomizerIn tiny reading ⟨1, 2⟩ (.obj [(ascii! "t", .str (ascii! "Ag==")), (ascii! "x", .null), (ascii! "r", .str (ascii! "AQ=="))]) :=
  C113_commitment_key_read (Json.obj [(ascii! "t", .str (ascii! "Ag==")), (ascii! "x", .null), (ascii! "r", .str (ascii! "AQ=="))]).text _
    (parseJson_text _ (by decide)) ⟨1, 2⟩ (by
      unfold fromJson
      rw [parseJson_text _ (by decide)]
      rfl)

/-- C113: the same keys in a document with spaces and another order -/
example : ∃ j, parseJson ([32] ++ ((Json.obj [(ascii! "sec_key", (jSecKey toyKeys).ser (walletKeys (List.replicate 32 7) rfl).sec),
      (ascii! "pub_key", (jPubKey toyKeys).ser (walletKeys (List.replicate 32 7) rfl).pub)]).text ++ [10])) = some j ∧
    KeyPairIn reading (walletKeys (List.replicate 32 7) rfl) j := by
  have h := C107_key_pair toyKeys_laws (walletKeys (List.replicate 32 7) rfl)
    (.obj _ _ _ rfl (List.forall₂_same.mpr (fun j _ => .refl j)) (List.Perm.swap _ _ _)) (writes_text _) [32] [10] (by decide) (by decide)
  cases e : parseJson ([32] ++ ((Json.obj [(ascii! "sec_key", (jSecKey toyKeys).ser (walletKeys (List.replicate 32 7) rfl).sec),
      (ascii! "pub_key", (jPubKey toyKeys).ser (walletKeys (List.replicate 32 7) rfl).pub)]).text ++ [10])) with
  | none =>
    have h' : fromJson (jKeyPair toyKeys) ([32] ++ ((Json.obj [(ascii! "sec_key", (jSecKey toyKeys).ser (walletKeys (List.replicate 32 7) rfl).sec),
      (ascii! "pub_key", (jPubKey toyKeys).ser (walletKeys (List.replicate 32 7) rfl).pub)]).text ++ [10])) = .ok _ := h
    unfold fromJson at h'
    rw [e] at h'
    cases h'
  | some j => exact ⟨j, rfl, C113_key_pair_read _ j e _ h⟩

example : ∃ j, parseJson (toJson (jKeyPair toyKeys) (walletKeys (List.replicate 32 7) rfl)) = some j ∧
    KeyPairIn writing (walletKeys (List.replicate 32 7) rfl) j := C113_key_pair_written toyKeys_laws _

/-- C113: what is written is read, so that the descriptions of both kinds hold of it -/
example : ∃ j, parseJson (toJson (jAKeyPair anonX) ⟨anonX.fromSecret 42, by decide⟩) = some j ∧ AKeyPairIn writing anonX (anonX.fromSecret 42) j ∧
    AKeyPairIn reading anonX (anonX.fromSecret 42) j := by
  obtain ⟨j, h1, h2⟩ := C113_anon_key_pair_written anonX_laws ⟨anonX.fromSecret 42, by decide⟩
  exact ⟨j, h1, h2, C113_anon_key_pair_read _ j h1 _ (fromJson_toJson (good_aKeyPair anonX_laws) (by decide) ⟨anonX.fromSecret 42, by decide⟩)⟩

example : ∃ j, parseJson (toJson (jTracerPair tiny tiny tiny tiny) (tinyDec, tinyEnc)) = some j ∧
    TracerPairIn tiny tiny tiny tiny writing tinyDec.1 tinyEnc.1 j ∧ TracerPairIn tiny tiny tiny tiny reading tinyDec.1 tinyEnc.1 j := by
  obtain ⟨j, h1, h2⟩ := C113_tracer_keys_written tiny_good tiny_good tiny_good tiny_good (tinyDec, tinyEnc)
  exact ⟨j, h1, h2, C113_tracer_keys_read _ j h1 _
    (fromJson_toJson (good_tracerPair tiny_good tiny_good tiny_good tiny_good) (by decide) (tinyDec, tinyEnc))⟩

example : ∃ j, parseJson (toJson (jCredential tiny tiny) tinyCredential) = some j ∧ CredentialIn tiny tiny writing tinyCredential j ∧
    CredentialIn tiny tiny reading tinyCredential j := by
  obtain ⟨j, h1, h2⟩ := C113_credential_written tiny_good tiny_good tinyCredential
  exact ⟨j, h1, h2, C113_credential_read _ j h1 _ (fromJson_toJson (good_credential tiny_good tiny_good) (by decide) tinyCredential)⟩

example : ∃ j, parseJson (toJson (jIssuerSK tiny tiny) ⟨1, 2, [3, 4, 5]⟩) = some j ∧ IssuerSKIn tiny tiny writing ⟨1, 2, [3, 4, 5]⟩ j ∧
    IssuerSKIn tiny tiny reading ⟨1, 2, [3, 4, 5]⟩ j := by
  obtain ⟨j, h1, h2⟩ := C113_issuer_secret_written tiny_good tiny_good ⟨1, 2, [3, 4, 5]⟩
  exact ⟨j, h1, h2, C113_issuer_secret_read _ j h1 _ (fromJson_toJson (good_issuerSK tiny_good tiny_good) (by decide) ⟨1, 2, [3, 4, 5]⟩)⟩

example : ∃ j, parseJson (toJson (jRandomizer tiny) ⟨1, 2⟩) = some j ∧ RandomizerIn tiny writing ⟨1, 2⟩ j ∧ RandomizerIn tiny reading ⟨1, 2⟩ j := by
  obtain ⟨j, h1, h2⟩ := C113_commitment_key_written tiny_good ⟨1, 2⟩
  exact ⟨j, h1, h2, C113_commitment_key_read _ j h1 _ (fromJson_toJson (good_randomizer tiny_good) (by decide) ⟨1, 2⟩)⟩

example : ∃ j, parseJson (toJson (jNotePolicies tiny tiny tiny) tinyPolicies) = some j ∧ NotePoliciesIn tiny tiny tiny writing tinyPolicies j ∧
    NotePoliciesIn tiny tiny tiny reading tinyPolicies j := by
  obtain ⟨j, h1, h2⟩ := C113_policies_written tiny_good tiny_good tiny_good tinyPolicies
  exact ⟨j, h1, h2, C113_policies_read _ j h1 _ (fromJson_toJson (good_notePolicies tiny_good tiny_good tiny_good) (by decide) tinyPolicies)⟩

example : ∃ j, parseJson (toJson (jOpenRecord wireL wireParse wireScalars) walletRecord) = some j ∧
    OpenRecordIn wireL wireParse wireScalars writing walletRecord j ∧ OpenRecordIn wireL wireParse wireScalars reading walletRecord j := by
  obtain ⟨j, h1, h2⟩ := C113_open_record_written wireParse_of wireScalars_good walletRecord
  exact ⟨j, h1, h2, C113_open_record_read _ j h1 _ (fromJson_toJson (good_openRecord wireParse_of wireScalars_good) (by decide) walletRecord)⟩

example : ∃ j, parseJson (toJson (jFullRecord wireL wireParse oldest wireScalars tiny tiny tiny) walletFull) = some j ∧
    RecordIn wireL wireParse wireScalars tiny tiny tiny writing walletFull j ∧ RecordIn wireL wireParse wireScalars tiny tiny tiny reading walletFull j := by
  obtain ⟨j, h1, h2⟩ := C113_asset_record_written wireParse_of oldest_fits wireScalars_good tiny_good tiny_good tiny_good walletFull
  exact ⟨j, h1, h2, C113_asset_record_read _ j h1 _
    (fromJson_toJson (good_fullRecord wireParse_of oldest_fits wireScalars_good tiny_good tiny_good tiny_good) (by decide) walletFull)⟩

/-- the template of an output with a hidden amount of a public type -/
def walletTemplate : Template wireT (ZMod 7) (ZMod 7) (ZMod 7) := ⟨5, wireType, [1], (true, false), [tinyPolicy]⟩

example : ∃ j, parseJson (toJson (jTemplate wireL wireParse tiny tiny tiny) walletTemplate) = some j ∧
    TemplateIn wireL wireParse tiny tiny tiny writing walletTemplate j ∧ TemplateIn wireL wireParse tiny tiny tiny reading walletTemplate j ∧
    j.member (ascii! "asset_record_type") = some (.str (ascii! "ConfidentialAmount_NonConfidentialAssetType")) := by
  obtain ⟨j, h1, h2, s, h3⟩ := C113_template_written wireParse_of tiny_good tiny_good tiny_good walletTemplate
  refine ⟨j, h1, h2, C113_template_read _ j h1 _
    (fromJson_toJson (good_template wireParse_of tiny_good tiny_good tiny_good) (by decide) walletTemplate), ?_⟩
  obtain ⟨v, h4, h5⟩ := h2.kind
  rw [h3] at h4
  cases h4
  rw [h3, h5 s rfl]
  rfl

example : ∃ j, parseJson (toJson (jCoin tiny tiny id id) walletCoin) = some j ∧ CoinIn tiny tiny id id writing walletCoin.1 j ∧
    CoinIn tiny tiny id id reading walletCoin.1 j := by
  obtain ⟨j, h1, h2⟩ := C113_anon_record_written (at32 := id) (atOf := id) tiny_good tiny_good (fun _ => rfl) walletCoin
  exact ⟨j, h1, h2, C113_anon_record_read _ j h1 _ (fromJson_toJson (good_coin (at32 := id) (atOf := id) tiny_good tiny_good (fun _ => rfl)) (by decide) walletCoin)⟩

end Verif.Serde
