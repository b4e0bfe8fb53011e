import Verif.Xfr.Lemmas
import Verif.Xfr.Toy

/-!
Properties C12 - C15: conservation of public transfers, refusal of unbalanced transfers, classification
and the checks on public fields.
-/

namespace Verif.Xfr

open Spec

variable {S : Types} [Field S.F] [AddCommGroup S.G] [Module S.F S.G] [DecidableEq S.CG]
  [DecidableEq S.AT] [DecidableEq S.EK] (E : Ext S)

omit [Field S.F] [AddCommGroup S.G] [Module S.F S.G] [DecidableEq S.CG] [DecidableEq S.EK] in
theorem dispatch_of_fold (bodies : List (XfrBody S)) (d d' : Deferred S)
    (h : bodies.foldlM dispatch d = some d') : ∀ b ∈ bodies, ∃ d0 d1, dispatch d0 b = some d1 := by
  induction bodies generalizing d with
  | nil => simp
  | cons b bs ih =>
    rw [List.foldlM_cons] at h
    cases hb : dispatch d b with
    | none => simp [hb] at h
    | some d1 =>
      simp only [hb, Option.bind_eq_bind, Option.bind_some] at h
      intro x hx
      rcases List.mem_cons.mp hx with rfl | hx
      · exact ⟨d, d1, hb⟩
      · exact ih d1 h x hx

omit [DecidableEq S.EK] in
theorem dispatch_of_batchAssetRecords (bodies : List (XfrBody S)) (h : E.batchAssetRecords bodies = some ()) :
    ∀ b ∈ bodies, ∃ d0 d1, dispatch d0 b = some d1 := by
  unfold Ext.batchAssetRecords at h
  cases hd : bodies.foldlM dispatch (⟨[], [], []⟩ : Deferred S) with
  | none => simp [hd] at h
  | some d => exact dispatch_of_fold bodies _ d hd

theorem dispatch_of_batchVerifyNotes (notes : List (XfrNote S)) (pols : List (Policies S))
    (h : E.batchVerifyNotes notes pols = some ()) :
    ∀ n ∈ notes, ∃ d0 d1, dispatch d0 n.body = some d1 := by
  unfold Ext.batchVerifyNotes at h
  split at h
  · unfold Ext.batchVerifyBodies at h
    cases hb : E.batchAssetRecords (notes.map (·.body)) with
    | none => simp [hb] at h
    | some u =>
      intro n hn
      exact dispatch_of_batchAssetRecords E _ hb n.body (List.mem_map.mpr ⟨n, hn, rfl⟩)
  · simp at h

/-! ### C12 -/

omit [Field S.F] [AddCommGroup S.G] [Module S.F S.G] [DecidableEq S.CG] [DecidableEq S.EK] in
/-- C12: the check applied to transfers without proofs accepts exactly the transfers whose records are
all public and whose inputs and outputs hold the same number of units of every asset type. -/
theorem C12_plain_mix_iff (ins outs : List (BlindAssetRecord S)) :
    verifyPlainAssetMix ins outs = some () ↔
      (∀ r ∈ ins ++ outs, ∃ t a, IsPublic r t a) ∧ ∀ t, publicTotal t ins = publicTotal t outs :=
  verifyPlainAssetMix_iff ins outs

example : verifyPlainAssetMix (S := toyT) [toyBar 5 1 0, toyBar 7 2 0] [toyBar 7 2 1, toyBar 3 1 1, toyBar 2 1 2]
    = some () := by decide

example : verifyPlainAssetMix (S := toyT) [toyBar 5 1 0, toyBar 7 2 0] [toyBar 7 1 1, toyBar 5 2 1]
    = none := by decide

/-- C12: every transfer accepted (alone or in a batch) without a proof is public and conserves every asset
type. -/
theorem C12_accepted_conserves (notes : List (XfrNote S)) (pols : List (Policies S))
    (h : E.batchVerifyNotes notes pols = some ()) (n : XfrNote S) (hn : n ∈ notes)
    (hp : n.body.amountProof = .noProof) :
    (∀ r ∈ n.body.inputs ++ n.body.outputs, ∃ t a, IsPublic r t a) ∧
      ∀ t, publicTotal t n.body.inputs = publicTotal t n.body.outputs := by
  obtain ⟨d0, d1, hd⟩ := dispatch_of_batchVerifyNotes E notes pols h n hn
  unfold dispatch at hd
  rw [hp] at hd
  simp only at hd
  rw [← verifyPlainAssetMix_iff]
  cases hv : verifyPlainAssetMix n.body.inputs n.body.outputs with
  | none => simp [hv] at hd
  | some u => rfl

/-- a history of a ledger of records: each note consumes its inputs and adds its outputs; every note was
accepted, alone or in a batch, and carries no proof -/
inductive History : List (BlindAssetRecord S) → List (BlindAssetRecord S) → Prop
  | nil (l) : History l l
  | step {l l' rest : List (BlindAssetRecord S)} {n : XfrNote S} {notes : List (XfrNote S)}
      {pols : List (Policies S)} (h : History l l')
      (hacc : E.batchVerifyNotes notes pols = some ()) (hn : n ∈ notes)
      (hp : n.body.amountProof = .noProof)
      (hin : l'.Perm (n.body.inputs ++ rest)) : History l (n.body.outputs ++ rest)

/-- C12 for histories: no sequence of accepted proof-less transfers changes the supply of any asset. -/
theorem C12_supply_invariant (l l' : List (BlindAssetRecord S)) (h : History E l l') (t : S.AT) :
    publicTotal t l' = publicTotal t l := by
  induction h with
  | nil => rfl
  | @step l' rest n notes pols h hacc hn hp hin ih =>
    have hc := (C12_accepted_conserves E notes pols hacc n hn hp).2 t
    rw [← ih]
    have h1 : publicTotal t l' = publicTotal t (n.body.inputs ++ rest) :=
      (hin.map (units t)).sum_eq
    rw [h1]
    simp only [publicTotal, List.map_append, List.sum_append] at hc ⊢
    omega

/-- the note used in the examples -/
def toyNote : Option (XfrNote toyT) :=
  toyE.genNote [toyRec 5 1 0, toyRec 7 2 1] [toyRec 7 2 3, toyRec 3 1 3, toyRec 2 1 4] [0, 1]

/-- policies of a transfer without tracing -/
def toyNoPolicies (i o : Nat) : Policies toyT :=
  { valid := true, inputsPolicies := List.replicate i [], inputsSigComs := List.replicate i none,
    outputsPolicies := List.replicate o [], outputsSigComs := List.replicate o none }

/-- an accepted note without proof exists (two asset types, three outputs) -/
example : ∃ n, toyNote = some n ∧ n.body.amountProof = .noProof ∧
    toyE.batchVerifyNotes [n] [toyNoPolicies 2 3] = some () :=
  ⟨toyNote.get (by decide +kernel), by simp, by rfl, by decide +kernel⟩

/-! ### C13 -/

omit [Field S.F] [AddCommGroup S.G] [Module S.F S.G] [DecidableEq S.CG] [DecidableEq S.EK] in
/-- C13: the balance check accepts exactly the transfers whose opened inputs and outputs hold the same
number of units of every asset type. -/
theorem C13_balance_iff (ins outs : List (AssetRecord S)) :
    checkAssetAmount ins outs = true ↔ ∀ t, openTotal t ins = openTotal t outs :=
  checkAssetAmount_iff ins outs

omit [Field S.F] [AddCommGroup S.G] [Module S.F S.G] [DecidableEq S.CG] [DecidableEq S.AT]
  [DecidableEq S.EK] in
/-- C13: the key check accepts exactly the lists of keys that own the inputs, position by position. -/
theorem C13_keys_iff [DecidableEq S.PK] (ins : List (AssetRecord S)) (keys : List S.KP) :
    checkKeys E ins keys = true ↔ ins.map (·.oar.bar.publicKey) = keys.map E.kpPub := by
  unfold checkKeys
  induction ins generalizing keys with
  | nil => cases keys <;> simp
  | cons r ins ih =>
    cases keys with
    | nil => simp
    | cons k keys =>
      have := ih keys
      simp only [Bool.and_eq_true, beq_iff_eq, List.length_cons, Nat.add_right_cancel_iff, List.zip_cons_cons,
        List.all_cons, List.map_cons, List.cons.injEq] at this ⊢
      rw [← this]
      tauto

/-- C13: a note is only built for owned inputs and a balanced transfer with at least one input, and it
carries exactly the records of the request. -/
theorem C13_generated_note [DecidableEq S.PK] (ins outs : List (AssetRecord S)) (keys : List S.KP)
    (note : XfrNote S) (h : E.genNote ins outs keys = some note) :
    ins ≠ [] ∧ ins.map (·.oar.bar.publicKey) = keys.map E.kpPub ∧
    (∀ t, openTotal t ins = openTotal t outs) ∧
    note.body.inputs = ins.map (·.oar.bar) ∧ note.body.outputs = outs.map (·.oar.bar) ∧
    note.body.ownersMemos = outs.map (·.ownerMemo) := by
  unfold Ext.genNote at h
  split at h
  · simp at h
  rename_i hne
  split at h
  · simp at h
  rename_i hk
  cases hb : E.genBody ins outs with
  | none => simp [hb] at h
  | some b =>
    simp only [hb, Option.bind_eq_bind, Option.bind_some] at h
    cases hs : E.ser b with
    | none => simp [hs] at h
    | some bytes =>
      simp only [hs, Option.bind_some] at h
      cases hm : E.multisigSign keys bytes with
      | none => simp [hm] at h
      | some sg =>
        simp only [hm, Option.bind_some, pure, Option.some.injEq] at h
        subst h
        refine ⟨by simpa using hne, (C13_keys_iff E ins keys).mp (by simpa using hk), ?_⟩
        unfold Ext.genBody at hb
        cases ht : xfrTypeOf ins outs with
        | none => simp [ht] at hb
        | some t =>
          simp only [ht, Option.bind_eq_bind, Option.bind_some] at hb
          split at hb
          · simp at hb
          rename_i hc
          refine ⟨(checkAssetAmount_iff ins outs).mp (by simpa using hc), ?_⟩
          obtain ⟨pf, _, hb⟩ := Option.bind_eq_some_iff.mp hb
          obtain ⟨tr, _, hb⟩ := Option.bind_eq_some_iff.mp hb
          simp only [pure, Option.some.injEq] at hb
          subst hb
          simp

example : (toyE.genNote [toyRec 5 1 0, toyRec 7 2 1] [toyRec 7 2 3, toyRec 3 1 3, toyRec 2 1 4] [0, 1]).isSome := by
  decide +kernel

/-- C13, reading it the other way: an unbalanced transfer or a wrong key is refused. -/
theorem C13_refused [DecidableEq S.PK] (ins outs : List (AssetRecord S)) (keys : List S.KP)
    (h : (∃ t, openTotal t ins ≠ openTotal t outs) ∨ ins.map (·.oar.bar.publicKey) ≠ keys.map E.kpPub ∨
      ins = []) : E.genNote ins outs keys = none := by
  cases hg : E.genNote ins outs keys with
  | none => rfl
  | some n =>
    obtain ⟨h1, h2, h3, _⟩ := C13_generated_note E ins outs keys n hg
    rcases h with ⟨t, ht⟩ | h | h
    · exact absurd (h3 t) ht
    · exact absurd h2 h
    · exact absurd h h1

/-! ### C14 -/

/-- more than one asset type occurs -/
def MultiAsset (rs : List (AssetRecord S)) : Prop :=
  ∃ r ∈ rs, ∃ r' ∈ rs, r.oar.assetType ≠ r'.oar.assetType

/-- some record hides its amount -/
def SomeAmountHidden (rs : List (AssetRecord S)) : Prop := ∃ r ∈ rs, HidesAmount r.oar.bar

/-- some record hides its asset type -/
def SomeTypeHidden (rs : List (AssetRecord S)) : Prop := ∃ r ∈ rs, HidesType r.oar.bar

omit [Field S.F] [AddCommGroup S.G] [Module S.F S.G] [DecidableEq S.CG] [DecidableEq S.EK] in
/-- C14: the class of a transfer is determined by three facts: whether more than one asset type occurs,
whether some amount is hidden and whether some type is hidden. -/
theorem C14_classification (ins outs : List (AssetRecord S)) (hne : ins ≠ []) :
    ∃ t, xfrTypeOf ins outs = some t ∧
      (t = .nonConfMulti ↔ MultiAsset (ins ++ outs) ∧ ¬SomeAmountHidden (ins ++ outs) ∧ ¬SomeTypeHidden (ins ++ outs)) ∧
      (t = .confMulti ↔ MultiAsset (ins ++ outs) ∧ (SomeAmountHidden (ins ++ outs) ∨ SomeTypeHidden (ins ++ outs))) ∧
      (t = .nonConfSingle ↔ ¬MultiAsset (ins ++ outs) ∧ ¬SomeAmountHidden (ins ++ outs) ∧ ¬SomeTypeHidden (ins ++ outs)) ∧
      (t = .confAmountSingle ↔ ¬MultiAsset (ins ++ outs) ∧ SomeAmountHidden (ins ++ outs) ∧ ¬SomeTypeHidden (ins ++ outs)) ∧
      (t = .confAssetSingle ↔ ¬MultiAsset (ins ++ outs) ∧ ¬SomeAmountHidden (ins ++ outs) ∧ SomeTypeHidden (ins ++ outs)) ∧
      (t = .confSingle ↔ ¬MultiAsset (ins ++ outs) ∧ SomeAmountHidden (ins ++ outs) ∧ SomeTypeHidden (ins ++ outs)) := by
  cases ins with
  | nil => exact absurd rfl hne
  | cons r0 ins =>
    simp only [xfrTypeOf]
    rw [fold_flags]
    simp only [Bool.false_or]
    generalize hL : r0 :: ins ++ outs = L
    have hmem : r0 ∈ L := by rw [← hL]; simp
    have hM : L.any (fun r => decide (r0.oar.assetType ≠ r.oar.assetType)) = true ↔ MultiAsset L := by
      simp only [List.any_eq_true, decide_eq_true_eq, MultiAsset]
      constructor
      · rintro ⟨r, hr, h⟩; exact ⟨r0, hmem, r, hr, h⟩
      · rintro ⟨r, hr, r', hr', h⟩
        by_cases h0 : r0.oar.assetType = r.oar.assetType
        · exact ⟨r', hr', fun e => h (h0 ▸ e)⟩
        · exact ⟨r, hr, h0⟩
    have hA : SomeAmountHidden L ↔
        (L.any (fun r => r.oar.bar.amount.isConfidential && !r.oar.bar.assetType.isConfidential) = true ∨
         L.any (fun r => r.oar.bar.amount.isConfidential && r.oar.bar.assetType.isConfidential) = true) := by
      simp only [SomeAmountHidden, HidesAmount, ← isConfidential_amount, List.any_eq_true, Bool.and_eq_true,
        Bool.not_eq_true']
      constructor
      · rintro ⟨r, hr, h⟩
        cases ht : r.oar.bar.assetType.isConfidential
        · exact .inl ⟨r, hr, h, ht⟩
        · exact .inr ⟨r, hr, h, ht⟩
      · rintro (⟨r, hr, h, _⟩ | ⟨r, hr, h, _⟩) <;> exact ⟨r, hr, h⟩
    have hT : SomeTypeHidden L ↔
        (L.any (fun r => !r.oar.bar.amount.isConfidential && r.oar.bar.assetType.isConfidential) = true ∨
         L.any (fun r => r.oar.bar.amount.isConfidential && r.oar.bar.assetType.isConfidential) = true) := by
      simp only [SomeTypeHidden, HidesType, ← isConfidential_type, List.any_eq_true, Bool.and_eq_true,
        Bool.not_eq_true']
      constructor
      · rintro ⟨r, hr, h⟩
        cases ht : r.oar.bar.amount.isConfidential
        · exact .inl ⟨r, hr, ht, h⟩
        · exact .inr ⟨r, hr, ht, h⟩
      · rintro (⟨r, hr, _, h⟩ | ⟨r, hr, _, h⟩) <;> exact ⟨r, hr, h⟩
    refine ⟨_, rfl, ?_⟩
    rw [← hM, hA, hT]
    cases L.any (fun r => decide (r0.oar.assetType ≠ r.oar.assetType)) <;>
      cases L.any (fun r => r.oar.bar.amount.isConfidential && !r.oar.bar.assetType.isConfidential) <;>
      cases L.any (fun r => !r.oar.bar.amount.isConfidential && r.oar.bar.assetType.isConfidential) <;>
      cases L.any (fun r => r.oar.bar.amount.isConfidential && r.oar.bar.assetType.isConfidential) <;>
      simp

example : xfrTypeOf (S := toyT) [toyRec 5 1 0] [toyConf 5 1 0] = some .confSingle := by decide +kernel
example : xfrTypeOf (S := toyT) [toyRec 5 1 0] [toyConf 5 2 0] = some .confMulti := by decide +kernel

/-- C14: the proof attached to a generated body is of the kind its class calls for. -/
theorem C14_generated_proof_kind (ins outs : List (AssetRecord S)) (b : XfrBody S)
    (h : E.genBody ins outs = some b) :
    ((b.amountProof = .noProof) ↔ ¬SomeAmountHidden (ins ++ outs) ∧ ¬SomeTypeHidden (ins ++ outs)) ∧
    ((∃ p, b.amountProof = .assetMix p) ↔
      MultiAsset (ins ++ outs) ∧ (SomeAmountHidden (ins ++ outs) ∨ SomeTypeHidden (ins ++ outs))) ∧
    ((∃ p, b.amountProof = .confAmount p) ↔
      ¬MultiAsset (ins ++ outs) ∧ SomeAmountHidden (ins ++ outs) ∧ ¬SomeTypeHidden (ins ++ outs)) ∧
    ((∃ p, b.amountProof = .confAsset p) ↔
      ¬MultiAsset (ins ++ outs) ∧ ¬SomeAmountHidden (ins ++ outs) ∧ SomeTypeHidden (ins ++ outs)) ∧
    ((∃ p q, b.amountProof = .confAll p q) ↔
      ¬MultiAsset (ins ++ outs) ∧ SomeAmountHidden (ins ++ outs) ∧ SomeTypeHidden (ins ++ outs)) := by
  have hne : ins ≠ [] := by
    rintro rfl
    simp [Ext.genBody, xfrTypeOf] at h
  obtain ⟨t, ht, c1, c2, c3, c4, c5, c6⟩ := C14_classification ins outs hne
  unfold Ext.genBody at h
  simp only [ht, Option.bind_eq_bind, Option.bind_some] at h
  split at h
  · simp at h
  obtain ⟨pf, hpf, h⟩ := Option.bind_eq_some_iff.mp h
  obtain ⟨tr, _, h⟩ := Option.bind_eq_some_iff.mp h
  simp only [pure, Option.some.injEq] at h
  subst h
  simp only
  generalize MultiAsset (ins ++ outs) = M at *
  generalize SomeAmountHidden (ins ++ outs) = A at *
  generalize SomeTypeHidden (ins ++ outs) = T at *
  cases t
  · simp only [reduceCtorEq, false_iff, true_iff] at c1 c2 c3 c4 c5 c6
    simp [Ext.genAmountProof, Ext.genSingle] at hpf
    subst hpf
    by_cases hM : M <;> by_cases hA : A <;> by_cases hT : T <;> simp_all
  · simp only [reduceCtorEq, false_iff, true_iff] at c1 c2 c3 c4 c5 c6
    simp [Ext.genAmountProof, Ext.genSingle, Option.bind_eq_some_iff] at hpf
    obtain ⟨p, _, rfl⟩ := hpf
    by_cases hM : M <;> by_cases hA : A <;> by_cases hT : T <;> simp_all
  · simp only [reduceCtorEq, false_iff, true_iff] at c1 c2 c3 c4 c5 c6
    simp [Ext.genAmountProof, Ext.genSingle, Option.bind_eq_some_iff] at hpf
    obtain ⟨p, _, rfl⟩ := hpf
    by_cases hM : M <;> by_cases hA : A <;> by_cases hT : T <;> simp_all
  · simp only [reduceCtorEq, false_iff, true_iff] at c1 c2 c3 c4 c5 c6
    simp [Ext.genAmountProof, Ext.genSingle, Option.bind_eq_some_iff] at hpf
    obtain ⟨p, _, q, _, rfl⟩ := hpf
    by_cases hM : M <;> by_cases hA : A <;> by_cases hT : T <;> simp_all
  · simp only [reduceCtorEq, false_iff, true_iff] at c1 c2 c3 c4 c5 c6
    simp [Ext.genAmountProof, Ext.genMulti, Option.bind_eq_some_iff] at hpf
    obtain ⟨p, _, rfl⟩ := hpf
    by_cases hM : M <;> by_cases hA : A <;> by_cases hT : T <;> simp_all
  · simp only [reduceCtorEq, false_iff, true_iff] at c1 c2 c3 c4 c5 c6
    simp [Ext.genAmountProof, Ext.genMulti] at hpf
    subst hpf
    by_cases hM : M <;> by_cases hA : A <;> by_cases hT : T <;> simp_all

example : ∃ b, toyE.genBody [toyRec 5 1 0] [toyConf 3 1 0, toyConf 2 1 0] = some b :=
  ⟨_, Option.some_get (by decide +kernel : (toyE.genBody [toyRec 5 1 0] [toyConf 3 1 0, toyConf 2 1 0]).isSome) |>.symm⟩

/-- C14: in every accepted transfer a hidden amount is covered by a range or mixing proof, a hidden type by
an asset or mixing proof, whatever the author of the transfer declared. -/
theorem C14_hidden_fields_are_proved (notes : List (XfrNote S)) (pols : List (Policies S))
    (h : E.batchVerifyNotes notes pols = some ()) (n : XfrNote S) (hn : n ∈ notes)
    (r : BlindAssetRecord S) (hr : r ∈ n.body.inputs ++ n.body.outputs) :
    (HidesAmount r → (∃ p, n.body.amountProof = .confAmount p) ∨ (∃ p q, n.body.amountProof = .confAll p q) ∨
      ∃ p, n.body.amountProof = .assetMix p) ∧
    (HidesType r → (∃ p, n.body.amountProof = .confAsset p) ∨ (∃ p q, n.body.amountProof = .confAll p q) ∨
      ∃ p, n.body.amountProof = .assetMix p) := by
  obtain ⟨d0, d1, hd⟩ := dispatch_of_batchVerifyNotes E notes pols h n hn
  unfold dispatch at hd
  cases hp : n.body.amountProof with
  | assetMix p => simp
  | confAll p q => simp
  | noProof =>
    rw [hp] at hd
    simp only at hd
    have hv : verifyPlainAssetMix n.body.inputs n.body.outputs = some () := by
      cases hv : verifyPlainAssetMix n.body.inputs n.body.outputs with
      | none => simp [hv] at hd
      | some u => rfl
    obtain ⟨t, a, h1, h2⟩ := ((verifyPlainAssetMix_iff _ _).mp hv).1 r hr
    simp [HidesAmount, HidesType, h1, h2]
  | confAmount p =>
    rw [hp] at hd
    simp only at hd
    have hv : verifyPlainAsset n.body.inputs n.body.outputs = some () := by
      cases hv : verifyPlainAsset n.body.inputs n.body.outputs with
      | none => simp [hv] at hd
      | some u => rfl
    obtain ⟨t, h1⟩ := ((verifyPlainAsset_iff _ _).mp hv).1 r hr
    simp [HidesType, h1]
  | confAsset p =>
    rw [hp] at hd
    simp only at hd
    have hv : verifyPlainAmounts n.body.inputs n.body.outputs = some () := by
      cases hv : verifyPlainAmounts n.body.inputs n.body.outputs with
      | none => simp [hv] at hd
      | some u => rfl
    obtain ⟨t, h1⟩ := ((verifyPlainAmounts_iff _ _).mp hv).1 r hr
    simp [HidesAmount, h1]

/-- an accepted transfer with hidden amounts and types -/
example : ∃ n, toyE.genNote [toyRec 5 1 0] [toyConf 3 1 0, toyConf 2 1 0] [0] = some n ∧
    toyE.batchVerifyNotes [n] [toyNoPolicies 1 2] = some () :=
  ⟨(toyE.genNote [toyRec 5 1 0] [toyConf 3 1 0, toyConf 2 1 0] [0]).get (by decide +kernel),
    by simp, by decide +kernel⟩

/-! ### C15 -/

omit [Field S.F] [AddCommGroup S.G] [Module S.F S.G] [DecidableEq S.CG] [DecidableEq S.AT]
  [DecidableEq S.EK] in
/-- C15: the public amount check accepts exactly when all amounts are public and the (exact, not modular)
sums agree. -/
theorem C15_plain_amounts_iff (ins outs : List (BlindAssetRecord S)) :
    verifyPlainAmounts ins outs = some () ↔
      (∀ r ∈ ins ++ outs, ∃ a, r.amount = .plain a) ∧
        (ins.map publicAmount).sum = (outs.map publicAmount).sum :=
  verifyPlainAmounts_iff ins outs

omit [Field S.F] [AddCommGroup S.G] [Module S.F S.G] [DecidableEq S.CG] [DecidableEq S.EK] in
/-- C15: the public type check accepts exactly when all types are public and equal. -/
theorem C15_plain_asset_iff (ins outs : List (BlindAssetRecord S)) :
    verifyPlainAsset ins outs = some () ↔
      (∀ r ∈ ins ++ outs, ∃ t, r.assetType = .plain t) ∧
        ∀ r ∈ ins ++ outs, ∀ r' ∈ ins ++ outs, r.assetType = r'.assetType :=
  verifyPlainAsset_iff ins outs

/-- two amounts whose sum exceeds `2^64` are not confused with a small one -/
example : verifyPlainAmounts (S := toyT) [toyBar 0xFFFFFFFFFFFFFFFF 1 0, toyBar 2 1 0] [toyBar 1 1 0] = none := by
  decide

example : verifyPlainAmounts (S := toyT) [toyBar 0xFFFFFFFFFFFFFFFF 1 0, toyBar 2 1 0]
    [toyBar 1 1 0, toyBar 0xFFFFFFFFFFFFFFFF 1 0, toyBar 1 1 0] = some () := by decide

example : verifyPlainAsset (S := toyT) [toyBar 4 1 0] [toyBar 3 1 0, toyBar 1 1 1] = some () := by decide

/-- C15: the same for accepted transfers: an amount-only proof comes with public, equal types; a type-only
proof comes with public amounts of equal sum. -/
theorem C15_accepted_single_asset (notes : List (XfrNote S)) (pols : List (Policies S))
    (h : E.batchVerifyNotes notes pols = some ()) (n : XfrNote S) (hn : n ∈ notes) :
    ((∃ p, n.body.amountProof = .confAmount p) →
      (∀ r ∈ n.body.inputs ++ n.body.outputs, ∃ t, r.assetType = .plain t) ∧
        ∀ r ∈ n.body.inputs ++ n.body.outputs, ∀ r' ∈ n.body.inputs ++ n.body.outputs,
          r.assetType = r'.assetType) ∧
    ((∃ p, n.body.amountProof = .confAsset p) →
      (∀ r ∈ n.body.inputs ++ n.body.outputs, ∃ a, r.amount = .plain a) ∧
        (n.body.inputs.map publicAmount).sum = (n.body.outputs.map publicAmount).sum) := by
  obtain ⟨d0, d1, hd⟩ := dispatch_of_batchVerifyNotes E notes pols h n hn
  unfold dispatch at hd
  constructor
  · rintro ⟨p, hp⟩
    rw [hp] at hd
    simp only at hd
    rw [← verifyPlainAsset_iff]
    cases hv : verifyPlainAsset n.body.inputs n.body.outputs with
    | none => simp [hv] at hd
    | some u => rfl
  · rintro ⟨p, hp⟩
    rw [hp] at hd
    simp only at hd
    rw [← verifyPlainAmounts_iff]
    cases hv : verifyPlainAmounts n.body.inputs n.body.outputs with
    | none => simp [hv] at hd
    | some u => rfl

end Verif.Xfr
