import Verif.Xfr.Props
import Verif.Xfr.Amount
import Verif.Xfr.Sound
import Verif.Xfr.Honest
import Verif.Xfr.Batch
import Verif.Xfr.MultiSig
import Verif.Xfr.Record
import Verif.Xfr.RecordHiding
import Verif.Xfr.TracerMemo
import Verif.Xfr.Tracing
import Verif.Xfr.Keys
import Verif.Xfr.Hybrid
import Verif.Xfr.MemoCompat

/-!
# The transfer theorems at concrete notes

Theorems of this directory applied to notes that the model builds and accepts, to keys, memos and records of the small
libraries defined beside the theorems.  Every hypothesis is discharged here.
-/

namespace Verif.Xfr

open Spec ElGamal

/-! ### Notes: C12 to C19, C25 -/

/-- the public note of `toyNote`: two inputs of two types, three outputs -/
def publicNote : XfrNote toyT := toyNote.get (by decide +kernel)

theorem publicNote_accepted : toyE.batchVerifyNotes [publicNote] [toyNoPolicies 2 3] = some () := by decide +kernel

/-- a note with hidden outputs -/
def hiddenNote : XfrNote toyT :=
  (toyE.genNote [toyRec 5 1 0] [toyConf 3 1 0, toyConf 2 1 0] [0]).get (by decide +kernel)

theorem hiddenNote_made : toyE.genNote [toyRec 5 1 0] [toyConf 3 1 0, toyConf 2 1 0] [0] = some hiddenNote := by
  simp [hiddenNote]

theorem hiddenNote_holds : (toyConf 3 1 0).oar.bar ∈ hiddenNote.body.inputs ++ hiddenNote.body.outputs := by
  rw [(C13_generated_note toyE _ _ _ hiddenNote hiddenNote_made).2.2.2.2.1]
  simp

theorem hiddenNote_accepted : toyE.batchVerifyNotes [hiddenNote] [toyNoPolicies 1 2] = some () := by decide +kernel

/-- a note with traced records -/
def tracedNote : XfrNote toyT :=
  (toyE.genNote [toyRec 3 1 0, toyTraced 2 1 7] [toyTraced 5 1 8] [0, 7]).get (by decide +kernel)

theorem tracedNote_accepted : toyE.verifyNote tracedNote toyTracedPolicies = some () := by decide +kernel

example := C12_accepted_conserves toyE [publicNote] [toyNoPolicies 2 3] publicNote_accepted publicNote (by simp) (by rfl)

/-- C12: the note spends its inputs from a ledger that also holds another record -/
example : publicTotal (1 : toyT.AT) (publicNote.body.outputs ++ [toyBar 100 1 9]) =
    publicTotal (1 : toyT.AT) (publicNote.body.inputs ++ [toyBar 100 1 9]) :=
  C12_supply_invariant toyE (publicNote.body.inputs ++ [toyBar 100 1 9]) (publicNote.body.outputs ++ [toyBar 100 1 9])
    (.step (.nil _) publicNote_accepted (by simp) (by rfl) (List.Perm.refl _)) 1

example := C13_generated_note toyE _ _ _ hiddenNote hiddenNote_made

/-- C13: one unit missing; a wrong key; no input -/
example := C13_refused toyE [toyRec 5 1 0] [toyRec 4 1 3] [0] (.inl ⟨1, by decide +kernel⟩)
example := C13_refused toyE [toyRec 5 1 0] [toyRec 5 1 3] [1] (.inr (.inl (by decide +kernel)))
example := C13_refused toyE [] [] [] (.inr (.inr rfl))

example := C14_classification (S := toyT) [toyRec 5 1 0] [toyConf 3 1 0, toyRec 2 1 0] (by simp)

example := C14_generated_proof_kind toyE [toyRec 5 1 0] [toyConf 3 1 0, toyConf 2 1 0] _
  (Option.some_get (by decide +kernel : (toyE.genBody [toyRec 5 1 0] [toyConf 3 1 0, toyConf 2 1 0]).isSome)).symm

/-- C14: the first output of the hidden note hides amount and type -/
example : (∃ p q, hiddenNote.body.amountProof = .confAll p q) ∨ ∃ p, hiddenNote.body.amountProof = .assetMix p := by
  have h := (C14_hidden_fields_are_proved toyE [hiddenNote] [toyNoPolicies 1 2] hiddenNote_accepted hiddenNote (by simp)
    (toyConf 3 1 0).oar.bar hiddenNote_holds).2 ⟨_, rfl⟩
  rcases h with ⟨p, h⟩ | h | h
  · obtain ⟨h1, -⟩ := (C15_accepted_single_asset toyE [hiddenNote] [toyNoPolicies 1 2] hiddenNote_accepted hiddenNote
      (by simp)).2 ⟨p, h⟩
    obtain ⟨a, ha⟩ := h1 (toyConf 3 1 0).oar.bar hiddenNote_holds
    cases ha
  · exact .inl h
  · exact .inr h

/-- C16: the transfer that burns two of five units: the extractor finds 3 and the difference 2, and the theorems about
openings give back `total oo ≤ total oi` -/
example : ∃ p coms oo d, toyE.extractValueCommitments (toyBurn p).inputs (toyBurn p).outputs p = some coms ∧
    List.Forall₂ (fun r o => Opens toyE r.amount o) (toyBurn p).outputs oo ∧
    Opens toyE (.conf p.diffLow p.diffHigh) d ∧
    (total [openingOf (toyHidden 5 1 10)] = total oo + d.value ∨
      ((total [openingOf (toyHidden 5 1 10)] : ℚ) - (total oo + d.value : Nat) ≠ 0 ∧
        ((total [openingOf (toyHidden 5 1 10)] : ℚ) - (total oo + d.value : Nat)) • toyE.B +
          (blind [openingOf (toyHidden 5 1 10)] - blind oo - blind [d]) • toyE.Bb = 0)) ∧
    total oo ≤ total [openingOf (toyHidden 5 1 10)] := by
  have hp : toyE.genRangeProof [toyHidden 5 1 10] [toyHidden 3 1 20] = some
      ((toyE.genRangeProof [toyHidden 5 1 10] [toyHidden 3 1 20]).get (by decide +kernel)) := by simp
  generalize hq : (toyE.genRangeProof [toyHidden 5 1 10] [toyHidden 3 1 20]).get (by decide +kernel) = p at hp
  have hin : List.Forall₂ (fun r o => Opens toyE r.amount o) (toyBurn p).inputs [openingOf (toyHidden 5 1 10)] :=
    .cons (opens_of_wf toyE _ (toyHidden_wf _ _ _)) .nil
  have hout : List.Forall₂ (fun r o => Opens toyE r.amount o) (toyBurn p).outputs [openingOf (toyHidden 3 1 20)] :=
    .cons (opens_of_wf toyE _ (toyHidden_wf _ _ _)) .nil
  have hacc := C16_burn_accepted toyE toyE_encoding toyE_complete toyE_batching [toyHidden 5 1 10]
    [toyHidden 3 1 20] (by intro o ho; rw [List.mem_singleton.mp ho]; exact toyHidden_wf _ _ _)
    (by intro o ho; rw [List.mem_singleton.mp ho]; exact toyHidden_wf _ _ _) 1
    (by intro o ho; simp at ho; rcases ho with rfl | rfl <;> rfl) p hp (toyBurn p) rfl rfl rfl
  obtain ⟨coms, hc, -⟩ := C16_accepted_body toyE castInj_rat toyE_batching (fun _ => rfl) _ toyE_rangeExtractor (toyBurn p) p hacc
    (.inl rfl) [openingOf (toyHidden 5 1 10)] hin (by simp [toyBurn]) (by simp [toyBurn])
  have hd : Opens toyE (.conf p.diffLow p.diffHigh) ⟨2, 0, 0, 0⟩ := by
    subst hq
    refine ⟨by decide, by decide, ?_, ?_⟩ <;> decide +kernel
  have h1 := C16_no_inflation toyE castInj_rat (fun _ _ h => h) (toyBurn p).inputs (toyBurn p).outputs p coms hc
    [openingOf (toyHidden 5 1 10)] [openingOf (toyHidden 3 1 20)] ⟨2, 0, 0, 0⟩ hin hout hd (by simp [toyBurn]) (by simp [toyBurn])
  have h2 := C16_outputs_at_most_inputs toyE castInj_rat (fun _ _ h => h)
    (by intro a b h; simpa using congrArg Prod.fst h) (toyBurn p).inputs (toyBurn p).outputs p coms hc
    [openingOf (toyHidden 5 1 10)] [openingOf (toyHidden 3 1 20)] ⟨2, 0, 0, 0⟩ hin hout hd (by simp [toyBurn]) (by simp [toyBurn])
  have h3 := C16_range_check_covers_outputs toyE (toyBurn p).inputs (toyBurn p).outputs p coms hc
  exact ⟨p, coms, _, _, hc, hout, hd, h1, h2⟩

example := C17_amount_proof_accepted toyE toyE_encoding toyE_complete toyE_batching [toyConf 7 1 10, toyConf 5 2 10]
  [toyConf 5 2 20, toyConf 4 1 20, toyConf 3 1 10]
  (by
    intro r hr
    simp only [List.cons_append, List.nil_append, List.mem_cons, List.not_mem_nil, or_false] at hr
    rcases hr with rfl | rfl | rfl | rfl | rfl <;> exact toyConf_wf _ _ _) _
  (Option.some_get (by decide +kernel : (toyE.genBody [toyConf 7 1 10, toyConf 5 2 10]
    [toyConf 5 2 20, toyConf 4 1 20, toyConf 3 1 10]).isSome)).symm

/-- C18: a batch of two accepted notes; a batch with one refused note -/
example := (C18_batch_notes toyE toyE_batching [tracedNote, publicNote] [toyTracedPolicies, toyNoPolicies 2 3]).mpr
  ⟨rfl, by decide +kernel⟩

example : toyE.batchVerifyNotes [publicNote, { publicNote with signatures := [] }] [toyNoPolicies 2 3, toyNoPolicies 2 3] ≠
    some () := fun h =>
  absurd ((C18_batch_notes toyE toyE_batching _ _).mp h).2 (by decide +kernel)

example := (C18_batch_bodies toyE toyE_batching [tracedNote.body, publicNote.body] [toyTracedPolicies, toyNoPolicies 2 3]).mpr
  ⟨rfl, by decide +kernel⟩

theorem toyE_pkBytes : ∀ a b, toyE.pkBytes a = toyE.pkBytes b → a = b := by
  intro a b h
  simpa using congrArg List.length h

example := (C19_accept_iff toyE toyE_pkBytes [(1, [7]), (2, [7]), (3, [7])] [2, 3, 1] [7]).mp (by decide +kernel)

example := C19_every_owner_signed toyE [(1, [7]), (2, [7]), (3, [7])] [2, 3, 1] [7] (by decide +kernel)

example := C19_order_irrelevant toyE toyE_pkBytes [(1, [7]), (2, [7]), (3, [7])] [2, 3, 1] [1, 2, 3] (by decide) [7]

example := C19_signed_verifies toyE toyE_pkBytes (by intro k m s hs; simp at hs; simp [← hs]) [3, 1, 2] [7] _ rfl
  [2, 1, 3] (by decide)

example := C19_accepted_note_signed toyE [publicNote] [toyNoPolicies 2 3] publicNote_accepted publicNote (by simp)

example := C25_accepted_note_traced toyE tracedNote toyTracedPolicies tracedNote_accepted

example := C25_accepted_identities toyE tracedNote toyTracedPolicies tracedNote_accepted

/-- C25: verifier and prover group the records of the traced note alike -/
example := C25_verifier_recomputes_groups [toyRec 3 1 0, toyTraced 2 1 7] [toyTraced 5 1 8] tracedNote.body rfl rfl rfl

example := C25_verifier_groups tracedNote.body toyTracedPolicies.inputsPolicies toyTracedPolicies.outputsPolicies _
  (Option.some_get (by decide +kernel : (collectByKey tracedNote.body toyTracedPolicies.inputsPolicies
    toyTracedPolicies.outputsPolicies).isSome)).symm

/-! ### Records and memos: C20 to C22, C38, C66, C92 -/

/-- the address of a key, in the examples -/
def noAddr {α : Type} : α → Addr := fun _ => ⟨List.replicate 20 0, rfl⟩

/-- the owner of the records of the examples -/
def ownerKey : SecKey toyKeys := .ed25519 ⟨List.replicate 32 3, rfl⟩

/-- 2^40 + 5 units of an asset type, both hidden -/
def hiddenTemplate : Template recT :=
  ⟨2 ^ 40 + 5, ⟨List.replicate 32 7, rfl⟩, true, true, toyPrims.pubOf noAddr ownerKey⟩

theorem recX_encoding : Encoding recX := ⟨fun _ => rfl, fun _ _ h => (Option.some_injective _ h).symm, rfl⟩

theorem hiddenTemplate_built : ∃ o memo, recR.build recX 12 ⟨List.replicate 32 9, 12⟩ hiddenTemplate = .ok (o, memo) :=
  C20_build_succeeds_partial recR recR_laws recX noAddr 12 ⟨List.replicate 32 9, 12⟩ hiddenTemplate ownerKey
    (by intro k h; cases h) rfl (fun _ _ => ⟨_, rfl⟩)

example : ∃ o : OpenAssetRecord recT, WellFormed recX o ∧ o.amount = 2 ^ 40 + 5 := by
  obtain ⟨o, m, h⟩ := hiddenTemplate_built
  exact ⟨o, C20_built_well_formed recR recX recX_encoding 12 _ _ o m h,
    (C20_open_built recR recR_laws recX noAddr 12 ⟨by norm_num, by norm_num⟩ _ _ ownerKey rfl o m h).2.1⟩

example := C20_address_panics recR recX 12 ⟨List.replicate 32 9, 12⟩
  { hiddenTemplate with publicKey := .address ⟨List.replicate 20 1, rfl⟩ } ⟨List.replicate 20 1, rfl⟩ rfl (.inl rfl)

/-- C20: the same memo opens a record with other commitments, to the same values -/
example : ∃ (memo : Option OwnerMemo) (o : OpenAssetRecord recT),
    recR.openRecord ⟨.conf (0, 0) (0, 0), .conf (0, 0), hiddenTemplate.publicKey⟩ memo
      ⟨toyPrims.pubOf noAddr ownerKey, ownerKey⟩ = .ok o ∧ o.amount = 2 ^ 40 + 5 := by
  obtain ⟨o, m, h⟩ := hiddenTemplate_built
  obtain ⟨h1, h2, -, h3, h4⟩ := C20_open_built recR recR_laws recX noAddr 12 ⟨by norm_num, by norm_num⟩ _ _ ownerKey rfl o m h
  have hb : ∃ lo hi c, o.bar = ⟨.conf lo hi, .conf c, hiddenTemplate.publicKey⟩ := by
    revert h3 h4
    generalize o.bar = b
    obtain ⟨am, ty, pk⟩ := b
    intro h3 h4
    cases am with
    | plain a => cases congrArg Prod.fst h4
    | conf lo hi =>
      cases ty with
      | plain t => cases congrArg Prod.snd h4
      | conf c => exact ⟨lo, hi, c, by rw [← h3]⟩
  obtain ⟨lo, hi, c, hb⟩ := hb
  rw [hb] at h1
  obtain ⟨o', k1, k2, -⟩ := C20_opening_unchecked recR _ m _ lo hi c (0, 0) (0, 0) (0, 0) o h1
  exact ⟨m, o', k1, k2.trans h2⟩

example := C20_hostile_memo_panics recR (.address ⟨List.replicate 20 0, rfl⟩) ⟨List.replicate 32 3, rfl⟩
  hiddenTemplate.publicKey (1, 2) (3, 4) ⟨List.replicate 32 7, rfl⟩ ⟨.secp256k1, [], [1, 2, 3]⟩ (by decide)

example : ∃ m, recR.openRecord ⟨.plain 5, .conf (0, 0), hiddenTemplate.publicKey⟩ (some m)
    ⟨toyPrims.pubOf noAddr ownerKey, ownerKey⟩ = .err := by
  obtain ⟨lock, hl⟩ := (C38_encryption_succeeds _ toyPrims_laws noAddr ⟨List.replicate 32 9, 12⟩
    (List.replicate 8 1)).1 ⟨List.replicate 32 3, rfl⟩
  exact ⟨⟨.ed25519, [], lock⟩, ((C20_lengths_refused recR hiddenTemplate.publicKey
    ⟨toyPrims.pubOf noAddr ownerKey, ownerKey⟩ (0, 0) (0, 0) (0, 0) 5 ⟨List.replicate 32 7, rfl⟩).2.2.2 _ (List.replicate 8 1)
    (C38_transfer_keys _ toyPrims_laws noAddr _ ownerKey _ _ hl)).2.1 (by simp)⟩

/-- C21: the memo for a tracer, opened and searched for its asset type -/
example : ∃ m a, traceX.decryptMemo m (traceX.generate 3 4 (List.replicate 32 9)).1 =
      .ok (a, some ⟨List.replicate 32 7, rfl⟩, []) ∧
    (∃ t', traceX.extractType m (traceX.generate 3 4 (List.replicate 32 9)).1.data
      [⟨List.replicate 32 6, rfl⟩, ⟨List.replicate 32 7, rfl⟩] = .ok t') ∧
    traceX.extractType m (traceX.generate 3 4 (List.replicate 32 9)).1.data [⟨List.replicate 32 6, rfl⟩] = .err ∧
    ∃ c, m.lockType = some c ∧ partialDecrypt c (traceX.generate 3 4 (List.replicate 32 9)).1.data =
      traceX.asScalar ⟨List.replicate 32 7, rfl⟩ • traceX.gBase := by
  obtain ⟨m, hm, a, ha, h⟩ := C21_decrypt_returns traceX traceX_laws 3 4 (List.replicate 32 9) [1] (some (5, 7, 11, 13))
    (some (⟨List.replicate 32 7, rfl⟩, 2)) [] (by simp)
  obtain ⟨t', h1, -⟩ := C21_extract_finds traceX (by norm_num) 3 4 (List.replicate 32 9) [1] (some (5, 7, 11, 13))
    ⟨List.replicate 32 7, rfl⟩ 2 [] m hm [⟨List.replicate 32 6, rfl⟩, ⟨List.replicate 32 7, rfl⟩] (by simp)
  have h2 := C21_extract_refuses traceX (by norm_num) 3 4 (List.replicate 32 9) [1] (some (5, 7, 11, 13))
    ⟨List.replicate 32 7, rfl⟩ 2 [] m hm [⟨List.replicate 32 6, rfl⟩]
    (by
      intro u hu
      rw [List.mem_singleton.mp hu]
      simp only [ne_eq, Nat.cast_inj]
      decide +kernel)
  refine ⟨m, a, ha, ⟨t', h1⟩, h2, ?_⟩
  have h3 := (C21_decrypt_consistent traceX m _ a _ _ ha).2.1
  cases hl : m.lockType with
  | none => rw [hl] at h3; exact h3.elim
  | some c => rw [hl] at h3; exact ⟨c, rfl, h3⟩

example := C22_commits_to_amount recX recX_encoding (2 ^ 40 + 5) (3, 4)

/-- C22: with independent generators equal commitments have equal amounts; here the two sides are the same commitment -/
example := C22_commitments_binding recX recX_encoding (fun n h _ => by positivity) (2 ^ 40 + 5) (2 ^ 40 + 5) (3, 4) (3, 4) rfl

theorem hidX_encoding : Encoding hidX := ⟨fun _ => rfl, fun _ _ h => (Option.some_injective _ h).symm, rfl⟩

theorem hidX_blindGen : BlindGen hidX := by
  constructor
  · intro a b h
    exact mul_right_cancel₀ (by norm_num : (3 : ℚ) ≠ 0) h
  · intro g
    exact ⟨g / 3, by show g / 3 * 3 = g; ring⟩

example := C92_pedersen hidX hidX_blindGen 5 6 7

example : ∃ m sh, ∃! h : ℚ × ℚ × ℚ, ∀ hash, Answers hash sh h →
    ∃ o, (hidR.withHash hash).build hidX 12 ⟨List.replicate 32 9, 12⟩
      ⟨2 ^ 40 + 5, ⟨List.replicate 32 7, rfl⟩, true, true, toyPrims.pubOf noAddr ownerKey⟩ = .ok (o, some m) ∧
      o.bar = ⟨.conf (10 : ℚ) (20 : ℚ), .conf (30 : ℚ), toyPrims.pubOf noAddr ownerKey⟩ := by
  obtain ⟨m, sh, h⟩ := memo_succeeds hidR hidR_laws noAddr 12 ⟨List.replicate 32 9, 12⟩ ownerKey (by intro k h; cases h)
    (fun _ _ => ⟨_, rfl⟩) (beBytes 8 (2 ^ 40 + 5 : UInt64).toNat ++ hidR.atBytes ⟨List.replicate 32 7, rfl⟩)
  exact ⟨m, sh, C92_record_hides hidR hidX hidX_encoding hidX_blindGen 12 _ (2 ^ 40 + 5) ⟨List.replicate 32 7, rfl⟩ _ m sh h
    (10 : ℚ) (20 : ℚ) (30 : ℚ)⟩

example : ∃ m sh, ∃! h : ℚ × ℚ, ∀ hash, Answers (S := hidT) hash sh (h.1, h.2, (1 : ℚ)) →
    ∃ o, (hidR.withHash hash).build hidX 12 ⟨List.replicate 32 9, 12⟩
      ⟨2 ^ 40 + 5, ⟨List.replicate 32 7, rfl⟩, true, false, toyPrims.pubOf noAddr ownerKey⟩ = .ok (o, some m) ∧
      o.bar = ⟨.conf (10 : ℚ) (20 : ℚ), .plain ⟨List.replicate 32 7, rfl⟩, toyPrims.pubOf noAddr ownerKey⟩ := by
  obtain ⟨m, sh, h⟩ := memo_succeeds hidR hidR_laws noAddr 12 ⟨List.replicate 32 9, 12⟩ ownerKey (by intro k h; cases h)
    (fun _ _ => ⟨_, rfl⟩) (beBytes 8 (2 ^ 40 + 5 : UInt64).toNat)
  exact ⟨m, sh, C92_amount_hides hidR hidX hidX_encoding hidX_blindGen 12 _ (2 ^ 40 + 5) ⟨List.replicate 32 7, rfl⟩ _ m sh h
    (10 : ℚ) (20 : ℚ) (1 : ℚ)⟩

example : ∃ m sh, ∃! h : ℚ, ∀ hash, Answers (S := hidT) hash sh ((1 : ℚ), (2 : ℚ), h) →
    ∃ o, (hidR.withHash hash).build hidX 12 ⟨List.replicate 32 9, 12⟩
      ⟨2 ^ 40 + 5, ⟨List.replicate 32 7, rfl⟩, false, true, toyPrims.pubOf noAddr ownerKey⟩ = .ok (o, some m) ∧
      o.bar = ⟨.plain (2 ^ 40 + 5), .conf (30 : ℚ), toyPrims.pubOf noAddr ownerKey⟩ := by
  obtain ⟨m, sh, h⟩ := memo_succeeds hidR hidR_laws noAddr 12 ⟨List.replicate 32 9, 12⟩ ownerKey (by intro k h; cases h)
    (fun _ _ => ⟨_, rfl⟩) (hidR.atBytes ⟨List.replicate 32 7, rfl⟩)
  exact ⟨m, sh, C92_type_hides hidR hidX hidX_encoding hidX_blindGen 12 _ (2 ^ 40 + 5) ⟨List.replicate 32 7, rfl⟩ _ m sh h
    (30 : ℚ) (1 : ℚ) (2 : ℚ)⟩

example := C38_x25519_round_trip toyPrims toyPrims_laws [1] (List.replicate 32 9) [1, 2, 3]

example := C38_ed25519_round_trip toyPrims toyPrims_laws [1] ⟨List.replicate 32 3, rfl⟩ [1, 2, 3]

example := C38_secp256k1_round_trip toyPrims toyPrims_laws 12 5 [1, 2, 3] _ _ rfl

example := (C38_ciphertext_bytes.2.1 (List.replicate 40 7)) _ rfl

example := (C66_order_independent toyWire [("lock_bytes", .arr [1, 2]), ("key_type", .kt .secp256k1), ("blind_share_bytes", .arr [3])]
  [("key_type", .kt .secp256k1), ("blind_share_bytes", .arr [3]), ("lock_bytes", .arr [1, 2])] (by
    exact (List.Perm.swap _ _ _).trans (List.Perm.cons _ (List.Perm.swap _ _ _))) ⟨.secp256k1, [3], [1, 2]⟩).mp
  (by decide +kernel)

example := C66_rejects toyWire [("lock_bytes", .arr [1, 2]), ("blind_share", .text (List.replicate 32 7))]
  ⟨.ed25519, List.replicate 32 7, [1, 2]⟩ (by decide +kernel)

example := C66_round_trip toyWire .kt .arr (fun _ => rfl) (fun _ => rfl) ⟨.secp256k1, [3], [1, 2]⟩

example := C66_old_layout toyWire (.text (List.replicate 32 7)) (.ct ⟨[2, 3], ⟨List.replicate 32 1, rfl⟩⟩) (List.replicate 32 7) _ rfl
  rfl rfl

example := C66_hostile_point_panics toyWire (.text [1, 2, 3]) [("lock_bytes", .arr [1])] [1, 2, 3] rfl (by decide)

example := C66_positional toyWire [.null, .arr [3], .arr [4]] ⟨.ed25519, [3], [4]⟩ (by decide +kernel)

/-! ### Keys and signatures: C23, C24 -/

example := C23_public_key_length toyKeys_laws (.secp256k1 ⟨List.replicate 33 4, rfl⟩)
example := C23_public_key_round_trip toyKeys_laws (.secp256k1 ⟨List.replicate 33 4, rfl⟩)
example := C23_secret_key_length toyKeys_laws (.address ⟨List.replicate 32 4, rfl⟩)
example := C23_secret_key_round_trip toyKeys_laws (.address ⟨List.replicate 32 4, rfl⟩)
example := C23_key_pair_round_trip toyKeys_laws ⟨.ed25519 ⟨List.replicate 32 5, rfl⟩, .ed25519 ⟨List.replicate 32 4, rfl⟩⟩
example := C23_encodings_injective toyKeys_laws
example := C24_signature_length toyKeys_laws (.secp256k1 ⟨List.replicate 64 3, rfl⟩ ⟨2, by decide⟩)
example := C24_signature_round_trip toyKeys_laws (.secp256k1 ⟨List.replicate 64 3, rfl⟩ ⟨2, by decide⟩)
example := (C24_encoding_injective toyKeys_laws (.secp256k1 ⟨List.replicate 64 3, rfl⟩ ⟨2, by decide⟩)
  (.address ⟨List.replicate 64 3, rfl⟩ ⟨2, by decide⟩)).not.mpr (by simp)
example := (C24_legacy_and_lengths toyKeys_laws).2 (List.replicate 65 0) (by decide) (by decide)
example := C24_type_byte_partial (L := toyKeys) 1 (List.replicate 64 3 ++ [2]) _ (by decide) rfl rfl
example := C24_unknown_type_accepted toyKeys_laws ⟨List.replicate 64 3, rfl⟩ 9 7 (by decide)
example := C24_recovery_id 1 1 (by decide) (by decide)

end Verif.Xfr
