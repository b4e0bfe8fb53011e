import Verif.Serde.JsonMemo

/-!
C106: notes in JSON.  The readers and writers that `serde_derive` makes for the notes, in a human readable format: structs are objects,
points, scalars, keys and proofs are texts in base64 of their bytes (algebra/src/lib.rs:74-105, algebra/src/serialization.rs:218-246),
owner memos are read by hand-written code.
-/

namespace Verif.Serde

open Verif.Xfr (Wire Field Types XfrAmount XfrAssetType BlindAssetRecord TracerMemo RangeProof AmountProof XfrBody XfrNote)
open Verif.Anon (ArToAbarNote ArToAbarBody BarToAbarNote BarToAbarBody AbarToArNote AbarToBarNote FoldInst)

theorem rc {σ α β : Type} {name : Bytes} {c : Codec α} {r : Rec σ β} {k m : Nat} (hc : c.Good k) (hr : r.Good m)
    (hn : name ∉ r.names := by fresh) : (Rec.cons name c r).Good (max k m) := rec_good_cons hc hr hn

/-! ### Proofs and ciphertexts -/

/-- `ChaumPedersenProof`, crypto/src/basic/chaum_pedersen.rs:12-19 -/
def jCp : Codec WCp :=
  (Rec.cons (ascii! "c3") jB64 <| Rec.cons (ascii! "c4") jB64 <| Rec.cons (ascii! "z1") jB64 <| Rec.cons (ascii! "z2") jB64 <|
    Rec.cons (ascii! "z3") jB64 Rec.nil).codec.via
    (fun p => (p.c3, p.c4, p.z1, p.z2, p.z3, ())) (fun (a, b, c, d, e, _) => .ok ⟨a, b, c, d, e⟩)

theorem good_cp : jCp.Good 1 :=
  good_via (good_rec (rc good_b64 <| rc good_b64 <| rc good_b64 <| rc good_b64 <| rc good_b64 rec_good_nil)) (fun _ => rfl)

theorem cp_ne_null (p : WCp) : jCp.ser p ≠ .null := rec_ne_null _ _

/-- `ChaumPedersenProofX`, chaum_pedersen.rs:128-132 -/
def jCpx : Codec WCpx :=
  (Rec.cons (ascii! "c1_eq_c2") jCp <| Rec.cons (ascii! "zero") (jOption jCp) Rec.nil).codec.via
    (fun p => (p.c1EqC2, p.zero, ())) (fun (a, b, _) => .ok ⟨a, b⟩)

theorem good_cpx : jCpx.Good 2 :=
  good_via (good_rec (rc good_cp <| rc (good_option good_cp cp_ne_null) rec_good_nil)) (fun _ => rfl)

/-- `PedersenElGamalEqProof`, crypto/src/basic/pedersen_elgamal.rs:10-25 -/
def jPeg : Codec WPeg :=
  (Rec.cons (ascii! "z1") jB64 <| Rec.cons (ascii! "z2") jB64 <| Rec.cons (ascii! "e1") jB64 <|
    Rec.cons (ascii! "c1") jB64 Rec.nil).codec.via
    (fun p => (p.z1, p.z2, p.e1, p.c1, ())) (fun (a, b, c, d, _) => .ok ⟨a, b, c, d⟩)

theorem good_peg : jPeg.Good 1 :=
  good_via (good_rec (rc good_b64 <| rc good_b64 <| rc good_b64 <| rc good_b64 rec_good_nil)) (fun _ => rfl)

/-- `CredentialPoK`, crypto/src/anon_creds.rs:137-145 -/
def jPok : Codec WPok :=
  (Rec.cons (ascii! "blinding") jB64 <| Rec.cons (ascii! "response_t") jB64 <| Rec.cons (ascii! "response_sk") jB64 <|
    Rec.cons (ascii! "response_attrs") (jVec jB64) Rec.nil).codec.via
    (fun p => (p.blinding, p.responseT, p.responseSk, p.responseAttrs, ())) (fun (a, b, c, d, _) => .ok ⟨a, b, c, d⟩)

theorem good_pok : jPok.Good 2 :=
  good_via (good_rec (rc good_b64 <| rc good_b64 <| rc good_b64 <| rc (good_vec good_b64) rec_good_nil)) (fun _ => rfl)

/-- `ElGamalCiphertext`, crypto/src/basic/elgamal.rs:15-22 -/
def jCt : Codec WCt :=
  (Rec.cons (ascii! "e1") jB64 <| Rec.cons (ascii! "e2") jB64 Rec.nil).codec.via
    (fun c => (c.e1, c.e2, ())) (fun (a, b, _) => .ok ⟨a, b⟩)

theorem good_ct : jCt.Good 1 := good_via (good_rec (rc good_b64 <| rc good_b64 rec_good_nil)) (fun _ => rfl)

theorem ct_ne_null (p : WCt) : jCt.ser p ≠ .null := rec_ne_null _ _

/-- `CACPoK`, crypto/src/confidential_anon_creds.rs:102-111 -/
def jCac : Codec WCac :=
  (Rec.cons (ascii! "pok") jPok <| Rec.cons (ascii! "cm_ct") (jVec jCt) <|
    Rec.cons (ascii! "response_rands") (jVec jB64) Rec.nil).codec.via
    (fun p => (p.pok, p.cmCt, p.responseRands, ())) (fun (a, b, c, _) => .ok ⟨a, b, c⟩)

theorem good_cac : jCac.Good 3 :=
  good_via (good_rec (rc good_pok <| rc (good_vec good_ct) <| rc (good_vec good_b64) rec_good_nil)) (fun _ => rfl)

theorem cac_ne_null (p : WCac) : jCac.ser p ≠ .null := rec_ne_null _ _

/-- `PlonkProof`, plonk/src/plonk/indexer.rs:14-32 -/
def jPlonk : Codec WPlonk :=
  (Rec.cons (ascii! "cm_w_vec") (jVec jB64) <| Rec.cons (ascii! "cm_t_vec") (jVec jB64) <| Rec.cons (ascii! "cm_z") jB64 <|
    Rec.cons (ascii! "w_polys_eval_zeta") (jVec jB64) <| Rec.cons (ascii! "z_eval_zeta_omega") jB64 <|
    Rec.cons (ascii! "s_polys_eval_zeta") (jVec jB64) <| Rec.cons (ascii! "opening_witness_zeta") jB64 <|
    Rec.cons (ascii! "opening_witness_zeta_omega") jB64 Rec.nil).codec.via
    (fun p => (p.cmW, p.cmT, p.cmZ, p.wEvals, p.zEval, p.sEvals, p.open1, p.open2, ()))
    (fun (a, b, c, d, e, f, g, h, _) => .ok ⟨a, b, c, d, e, f, g, h⟩)

theorem good_plonk : jPlonk.Good 2 :=
  good_via (good_rec (rc (good_vec good_b64) <| rc (good_vec good_b64) <| rc good_b64 <| rc (good_vec good_b64) <| rc good_b64 <|
    rc (good_vec good_b64) <| rc good_b64 <| rc good_b64 rec_good_nil)) (fun _ => rfl)

/-! ### Transfers -/

/-- `[u8; 32]` -/
def jArray32 : Codec { b : Bytes // b.length = 32 } :=
  (jVec jU8).via Subtype.val (fun b => if h : b.length = 32 then .ok ⟨b, h⟩ else .err)

theorem good_array32 : jArray32.Good 1 := good_via (good_vec good_u8) (fun b => dif_pos b.2)

section
variable {S : Types} (L : Leaves S) (R : Parse S) (sg : S.Sg → Bytes) (lay : WMemo → Layout)

/-- `XfrAmount`, api/src/xfr/structs.rs:117-123 -/
def jAmount : Codec (XfrAmount S) where
  ser a := match a with
    | .conf lo hi => .obj [(confName, (jPair (jLeaf L.cg R.cg) (jLeaf L.cg R.cg)).ser (lo, hi))]
    | .plain a => .obj [(nonConfName, jDecimal.ser a)]
  de := deEnum (fun _ => .err) (fun n v =>
    if n = confName then do
      let p ← (jPair (jLeaf L.cg R.cg) (jLeaf L.cg R.cg)).de v
      .ok (.conf p.1 p.2)
    else if n = nonConfName then do
      let a ← jDecimal.de v
      .ok (.plain a)
    else .err)
  missing := .err

/-- `XfrAssetType`, structs.rs:194-199 -/
def jAssetType : Codec (XfrAssetType S) where
  ser a := match a with
    | .conf c => .obj [(confName, (jLeaf L.cg R.cg).ser c)]
    | .plain t => .obj [(nonConfName, jArray32.ser (L.at' t))]
  de := deEnum (fun _ => .err) (fun n v =>
    if n = confName then do
      let c ← (jLeaf L.cg R.cg).de v
      .ok (.conf c)
    else if n = nonConfName then do
      let t ← jArray32.de v
      .ok (.plain (R.at' t))
    else .err)
  missing := .err

/-- `BlindAssetRecord`, structs.rs:96-103 -/
def jBar : Codec (BlindAssetRecord S) :=
  (Rec.cons (ascii! "amount") (jAmount L R) <| Rec.cons (ascii! "asset_type") (jAssetType L R) <|
    Rec.cons (ascii! "public_key") (jLeaf L.pk R.pk) Rec.nil).codec.via
    (fun r => (r.amount, r.assetType, r.publicKey, ())) (fun (a, b, c, _) => .ok ⟨a, b, c⟩)

/-- `AssetTracerEncKeys`, structs.rs:262-271 -/
def jEncKeys : Codec (S.EK × Bytes × Bytes × Unit) :=
  (Rec.cons (ascii! "record_data_enc_key") (jLeaf L.ek R.ek) <| Rec.cons (ascii! "attrs_enc_key") jB64 <|
    Rec.cons (ascii! "lock_info_enc_key") jB64 Rec.nil).codec

/-- `ZeiHybridCiphertext` of a tracer memo, crypto/src/basic/hybrid_encryption.rs:118-123 -/
def jLockInfo : Codec (Bytes × Bytes × Unit) :=
  (Rec.cons (ascii! "ciphertext") jB64 <| Rec.cons (ascii! "ephemeral_public_key") jB64 Rec.nil).codec

/-- `TracerMemo`, structs.rs:371-383 -/
def jTracerMemo : Codec (TracerMemo S) :=
  (Rec.cons (ascii! "enc_key") (jEncKeys L R) <|
    Rec.cons (ascii! "lock_amount") (jOption (jPair (jCt.via L.ct R.ct) (jCt.via L.ct R.ct))) <|
    Rec.cons (ascii! "lock_asset_type") (jOption (jCt.via L.ct R.ct)) <|
    Rec.cons (ascii! "lock_attributes") (jVec (jCt.via L.act R.act)) <|
    Rec.cons (ascii! "lock_info") jLockInfo Rec.nil).codec.via
    (fun m => ((m.encKey, m.attrsEncKey, m.lockInfoEncKey, ()), m.lockAmount, m.lockAssetType, m.lockAttributes,
      (m.lockInfo.1, m.lockInfo.2, ()), ()))
    (fun ((e, a, l, _), b, c, d, (x, y, _), _) => .ok ⟨e, b, c, d, a, l, (x, y)⟩)

/-- `XfrRangeProof`, structs.rs:668-678 -/
def jRangeProof : Codec (RangeProof S) :=
  (Rec.cons (ascii! "range_proof") (jLeaf L.rp R.rp) <| Rec.cons (ascii! "xfr_diff_commitment_low") (jLeaf L.cg R.cg) <|
    Rec.cons (ascii! "xfr_diff_commitment_high") (jLeaf L.cg R.cg) Rec.nil).codec.via
    (fun p => (p.proof, p.diffLow, p.diffHigh, ())) (fun (a, b, c, _) => .ok ⟨a, b, c⟩)

/-- `AssetTypeAndAmountProof`, structs.rs:646-657 -/
def jAmountProof : Codec (AmountProof S) where
  ser p := match p with
    | .assetMix p => .obj [(proofName 0, (jLeaf L.mp R.mp).ser p)]
    | .confAmount p => .obj [(proofName 1, (jRangeProof L R).ser p)]
    | .confAsset p => .obj [(proofName 2, (jCpx.via L.ap R.ap).ser p)]
    | .confAll p q => .obj [(proofName 3, (jPair (jRangeProof L R) (jCpx.via L.ap R.ap)).ser (p, q))]
    | .noProof => .str (proofName 4)
  de := deEnum (fun s => if s = proofName 4 then .ok .noProof else .err) (fun n v =>
    if n = proofName 0 then do
      let p ← (jLeaf L.mp R.mp).de v
      .ok (.assetMix p)
    else if n = proofName 1 then do
      let p ← (jRangeProof L R).de v
      .ok (.confAmount p)
    else if n = proofName 2 then do
      let p ← (jCpx.via L.ap R.ap).de v
      .ok (.confAsset p)
    else if n = proofName 3 then do
      let p ← (jPair (jRangeProof L R) (jCpx.via L.ap R.ap)).de v
      .ok (.confAll p.1 p.2)
    else if n = proofName 4 then (match v with
      | .null => .ok .noProof
      | _ => .err)
    else .err)
  missing := .err

/-- `AssetTracingProofs`, structs.rs:680-692 -/
def jTracingProofs : Codec (List S.TPf × List (List (Option S.IPf)) × List (List (Option S.IPf)) × Unit) :=
  (Rec.cons (ascii! "asset_type_and_amount_proofs") (jVec (jPeg.via L.tpf R.tpf)) <|
    Rec.cons (ascii! "inputs_identity_proofs") (jVec (jVec (jOption (jCac.via L.ipf R.ipf)))) <|
    Rec.cons (ascii! "outputs_identity_proofs") (jVec (jVec (jOption (jCac.via L.ipf R.ipf)))) Rec.nil).codec

/-- `XfrProofs`, structs.rs:659-666 -/
def jProofs : Codec (AmountProof S × (List S.TPf × List (List (Option S.IPf)) × List (List (Option S.IPf)) × Unit) × Unit) :=
  (Rec.cons (ascii! "asset_type_and_amount_proof") (jAmountProof L R) <|
    Rec.cons (ascii! "asset_tracing_proof") (jTracingProofs L R) Rec.nil).codec

/-- `Option<OwnerMemo>` -/
def jOwnerMemo : Codec (Option S.OM) := jOption ((jMemo lay).via L.om R.om)

/-- `XfrBody`, structs.rs:78-91 -/
def jXfrBody : Codec (XfrBody S) :=
  (Rec.cons (ascii! "inputs") (jVec (jBar L R)) <| Rec.cons (ascii! "outputs") (jVec (jBar L R)) <|
    Rec.cons (ascii! "proofs") (jProofs L R) <| Rec.cons (ascii! "asset_tracing_memos") (jVec (jVec (jTracerMemo L R))) <|
    Rec.cons (ascii! "owners_memos") (jVec (jOwnerMemo L R lay)) Rec.nil).codec.via
    (fun b => (b.inputs, b.outputs, (b.amountProof, (b.tracingProofs, b.inputsIdentityProofs, b.outputsIdentityProofs, ()), ()),
      b.tracingMemos, b.ownersMemos, ()))
    (fun (i, o, (p, (t, x, y, _), _), m, w, _) => .ok ⟨i, o, p, t, x, y, m, w⟩)

/-- `XfrMultiSig`, api/src/xfr/sig.rs:656-661 -/
def jMultiSig : Codec (List S.Sg × Unit) := (Rec.cons (ascii! "signatures") (jVec (jLeaf sg R.sg)) Rec.nil).codec

/-- `XfrNote`, structs.rs:69-76 -/
def jXfrNote : Codec (XfrNote S) :=
  (Rec.cons (ascii! "body") (jXfrBody L R lay) <| Rec.cons (ascii! "multisig") (jMultiSig R sg) Rec.nil).codec.via
    (fun n => (n.body, (n.signatures, ()), ())) (fun (b, (s, _), _) => .ok ⟨b, s⟩)

variable {L R sg lay} (hR : R.Of L sg) (hl : ∀ m, (lay m).Fits m)

include hR

theorem good_amount : (jAmount L R).Good 2 where
  back a := by
    cases a with
    | conf lo hi =>
      simp only [jAmount, deEnum, if_true, (good_pair (good_leaf hR.cg) (good_leaf hR.cg)).back, Res.bind_ok]
    | plain a =>
      have h : nonConfName ≠ confName := by decide
      simp only [jAmount, deEnum, if_neg h, if_true, good_decimal.back, Res.bind_ok]
  depth a := by
    cases a with
    | conf lo hi =>
      have := (good_pair (good_leaf hR.cg) (good_leaf hR.cg)).depth (lo, hi)
      simp only [jAmount, Json.depth, membersDepth]
      omega
    | plain a =>
      have := good_decimal.depth a
      simp only [jAmount, Json.depth, membersDepth]
      omega
  perm := deEnum_perm (fun n v v' a hv h => by
    split_ifs at h ⊢ with h1 h2
    · obtain ⟨p, hp, e⟩ := Res.bind_eq_ok.mp h
      exact Res.bind_eq_ok.mpr ⟨p, (good_pair (good_leaf hR.cg) (good_leaf hR.cg)).perm _ _ _ hv hp, e⟩
    · obtain ⟨p, hp, e⟩ := Res.bind_eq_ok.mp h
      exact Res.bind_eq_ok.mpr ⟨p, good_decimal.perm _ _ _ hv hp, e⟩)

theorem good_assetType : (jAssetType L R).Good 2 where
  back a := by
    cases a with
    | conf c => simp only [jAssetType, deEnum, if_true, (good_leaf hR.cg).back, Res.bind_ok]
    | plain a =>
      have h : nonConfName ≠ confName := by decide
      simp only [jAssetType, deEnum, if_neg h, if_true, good_array32.back, Res.bind_ok, hR.at']
  depth a := by
    cases a with
    | conf c =>
      have := (good_leaf hR.cg).depth c
      simp only [jAssetType, Json.depth, membersDepth]
      omega
    | plain a =>
      have := good_array32.depth (L.at' a)
      simp only [jAssetType, Json.depth, membersDepth]
      omega
  perm := deEnum_perm (fun n v v' a hv h => by
    split_ifs at h ⊢ with h1 h2
    · obtain ⟨p, hp, e⟩ := Res.bind_eq_ok.mp h
      exact Res.bind_eq_ok.mpr ⟨p, (good_leaf hR.cg).perm _ _ _ hv hp, e⟩
    · obtain ⟨p, hp, e⟩ := Res.bind_eq_ok.mp h
      exact Res.bind_eq_ok.mpr ⟨p, good_array32.perm _ _ _ hv hp, e⟩)

theorem good_bar : (jBar L R).Good 3 :=
  good_via (good_rec (rc (good_amount hR) <| rc (good_assetType hR) <| rc (good_leaf hR.pk) rec_good_nil)) (fun _ => rfl)

theorem good_tracerMemo : (jTracerMemo L R).Good 3 :=
  good_via (good_rec (rc (good_rec (rc (good_leaf hR.ek) <| rc good_b64 <| rc good_b64 rec_good_nil)) <|
    rc (good_option (good_pair (good_via good_ct hR.ct) (good_via good_ct hR.ct)) (fun _ => by simp [jPair])) <|
    rc (good_option (good_via good_ct hR.ct) (fun _ => ct_ne_null _)) <|
    rc (good_vec (good_via good_ct hR.act)) <|
    rc (good_rec (rc good_b64 <| rc good_b64 rec_good_nil)) rec_good_nil)) (fun _ => rfl)

theorem good_rangeProof : (jRangeProof L R).Good 1 :=
  good_via (good_rec (rc (good_leaf hR.rp) <| rc (good_leaf hR.cg) <| rc (good_leaf hR.cg) rec_good_nil)) (fun _ => rfl)

theorem good_amountProof : (jAmountProof L R).Good 4 where
  back a := by
    have h1 : proofName 1 ≠ proofName 0 := by decide
    have h2 : proofName 2 ≠ proofName 0 ∧ proofName 2 ≠ proofName 1 := by decide
    have h3 : proofName 3 ≠ proofName 0 ∧ proofName 3 ≠ proofName 1 ∧ proofName 3 ≠ proofName 2 := by decide
    cases a with
    | assetMix p => simp only [jAmountProof, deEnum, if_true, (good_leaf hR.mp).back, Res.bind_ok]
    | confAmount p => simp only [jAmountProof, deEnum, if_neg h1, if_true, (good_rangeProof hR).back, Res.bind_ok]
    | confAsset p => simp only [jAmountProof, deEnum, if_neg h2.1, if_neg h2.2, if_true, (good_via good_cpx hR.ap).back, Res.bind_ok]
    | confAll p q =>
      simp only [jAmountProof, deEnum, if_neg h3.1, if_neg h3.2.1, if_neg h3.2.2, if_true,
        (good_pair (good_rangeProof hR) (good_via good_cpx hR.ap)).back, Res.bind_ok]
    | noProof => simp only [jAmountProof, deEnum, if_true]
  depth a := by
    cases a with
    | assetMix p =>
      have := (good_leaf hR.mp).depth p
      simp only [jAmountProof, Json.depth, membersDepth]
      omega
    | confAmount p =>
      have := (good_rangeProof hR).depth p
      simp only [jAmountProof, Json.depth, membersDepth]
      omega
    | confAsset p =>
      have := (good_via good_cpx hR.ap).depth p
      simp only [jAmountProof, Json.depth, membersDepth]
      omega
    | confAll p q =>
      have := (good_pair (good_rangeProof hR) (good_via good_cpx hR.ap)).depth (p, q)
      simp only [jAmountProof, Json.depth, membersDepth]
      omega
    | noProof => simp only [jAmountProof, Json.depth]; omega
  perm := deEnum_perm (fun n v v' a hv h => by
    split_ifs at h ⊢ with h1 h2
    · obtain ⟨p, hp, e⟩ := Res.bind_eq_ok.mp h
      exact Res.bind_eq_ok.mpr ⟨p, (good_leaf hR.mp).perm _ _ _ hv hp, e⟩
    · obtain ⟨p, hp, e⟩ := Res.bind_eq_ok.mp h
      exact Res.bind_eq_ok.mpr ⟨p, (good_rangeProof hR).perm _ _ _ hv hp, e⟩
    · obtain ⟨p, hp, e⟩ := Res.bind_eq_ok.mp h
      exact Res.bind_eq_ok.mpr ⟨p, (good_via good_cpx hR.ap).perm _ _ _ hv hp, e⟩
    · obtain ⟨p, hp, e⟩ := Res.bind_eq_ok.mp h
      exact Res.bind_eq_ok.mpr ⟨p, (good_pair (good_rangeProof hR) (good_via good_cpx hR.ap)).perm _ _ _ hv hp, e⟩
    · cases v with
      | null => rw [reord_null hv]; exact h
      | _ => cases h)

theorem good_identity : (jVec (jVec (jOption (jCac.via L.ipf R.ipf)))).Good 5 :=
  good_vec (good_vec (good_option (good_via good_cac hR.ipf) (fun _ => cac_ne_null _)))

theorem good_proofs : (jProofs L R).Good 7 :=
  good_rec (rc (good_amountProof hR) <|
    rc (good_rec (rc (good_vec (good_via good_peg hR.tpf)) <| rc (good_identity hR) <| rc (good_identity hR) rec_good_nil)) rec_good_nil)

include hl

theorem good_ownerMemo : (jOwnerMemo L R lay).Good 2 := good_option (good_via (good_memo hl) hR.om) (fun _ => memo_ne_null _ _)

theorem good_xfrBody : (jXfrBody L R lay).Good 8 :=
  good_via (good_rec (rc (good_vec (good_bar hR)) <| rc (good_vec (good_bar hR)) <| rc (good_proofs hR) <|
    rc (good_vec (good_vec (good_tracerMemo hR))) <| rc (good_vec (good_ownerMemo hR hl)) rec_good_nil)) (fun _ => rfl)

theorem good_xfrNote : (jXfrNote L R sg lay).Good 9 :=
  good_via (good_rec (rc (good_xfrBody hR hl) <|
    rc (good_rec (rc (good_vec (good_leaf hR.sg)) rec_good_nil)) rec_good_nil)) (fun _ => rfl)

end

/-! ### Conversions and anonymous transfers -/

/-- `PhantomData` -/
def jUnit : Codec Unit where
  ser _ := .null
  de j := match j with
    | .null => .ok ()
    | _ => .err
  missing := .err

theorem good_unit : jUnit.Good 0 where
  back _ := rfl
  depth _ := Nat.le_refl 0
  perm j j' a hj h := by
    cases j with
    | null => rw [reord_null hj]; exact h
    | _ => cases h

section
variable {S : Types} (L : Leaves S) (R : Parse S) (sg : S.Sg → Bytes) (lay : WMemo → Layout) {K Pf : Type} (bls : K → Bytes) (pf : Pf → WPlonk)
  (blsR : Bytes → Res K) (pfR : WPlonk → Res Pf)

/-- `AnonAssetRecord`, api/src/anon_xfr/structs.rs:35-39 -/
def jAbar : Codec K := (Rec.cons (ascii! "commitment") (jLeaf bls blsR) Rec.nil).codec.via (fun c => (c, ())) (fun (c, _) => .ok c)

/-- `AxfrOwnerMemo`, structs.rs:308-314 -/
def jAMemo {A : Type} (apk : A → Bytes) (apkR : Bytes → Res A) : Codec (Anon.AMemo A) :=
  (Rec.cons (ascii! "point") (jLeaf apk apkR) <| Rec.cons (ascii! "ctext") (jVec jU8) Rec.nil).codec.via
    (fun m => (m.point, m.ctext, ())) (fun (a, b, _) => .ok ⟨a, b⟩)

/-- the same with the bytes of the point, as the conversion notes have it in the model -/
def jAMemoBytes : Codec (Bytes × Bytes) := (jAMemo id .ok).via (fun m => ⟨m.1, m.2⟩) (fun m => .ok (m.point, m.ctext))

/-- `ArToAbarBody`, ar_to_abar.rs:35-45 -/
def jArToAbarBody : Codec (ArToAbarBody S K Pf) :=
  (Rec.cons (ascii! "input") (jBar L R) <| Rec.cons (ascii! "output") (jAbar bls blsR) <| Rec.cons (ascii! "proof") (jPlonk.via pf pfR) <|
    Rec.cons (ascii! "memo") jAMemoBytes Rec.nil).codec.via
    (fun b => (b.input, b.output, b.proof, b.memo, ())) (fun (a, b, c, d, _) => .ok ⟨a, b, c, d⟩)

/-- `ArToAbarNote`, ar_to_abar.rs:27-33 -/
def jArToAbarNote : Codec (ArToAbarNote S K Pf) :=
  (Rec.cons (ascii! "body") (jArToAbarBody L R bls pf blsR pfR) <| Rec.cons (ascii! "signature") (jLeaf sg R.sg) Rec.nil).codec.via
    (fun n => (n.body, n.signature, ())) (fun (a, b, _) => .ok ⟨a, b⟩)

/-- `DelegatedSchnorrProof`, crypto/src/delegated_schnorr.rs:11-22 -/
def jSchnorr {G F : Type} (pt : G → Bytes) (sc : F → Bytes) (ptR : Bytes → Res G) (scR : Bytes → Res F) :
    Codec (DelegatedSchnorr.Proof F G K) :=
  (Rec.cons (ascii! "inspection_comm") (jLeaf bls blsR) <| Rec.cons (ascii! "randomizers") (jVec (jLeaf pt ptR)) <|
    Rec.cons (ascii! "response_scalars") (jVec (jPair (jLeaf sc scR) (jLeaf sc scR))) <|
    Rec.cons (ascii! "params_phantom") jUnit Rec.nil).codec.via
    (fun p => (p.comm, p.randomizers, p.responses, (), ())) (fun (a, b, c, _, _) => .ok ⟨a, b, c⟩)

variable {Q : SimFr.Params} (pt : S.G → Bytes) (sc : ZMod Q.r → Bytes) (ptR : Bytes → Res S.G) (scR : Bytes → Res (ZMod Q.r))

/-- `BarToAbarBody`, bar_to_abar.rs:47-61 -/
def jBarToAbarBody : Codec (BarToAbarBody S Q K Pf) :=
  (Rec.cons (ascii! "input") (jBar L R) <| Rec.cons (ascii! "output") (jAbar bls blsR) <|
    Rec.cons (ascii! "proof") (jPair (jSchnorr bls blsR pt sc ptR scR) (jPlonk.via pf pfR)) <|
    Rec.cons (ascii! "memo") jAMemoBytes Rec.nil).codec.via
    (fun b => (b.input, b.output, (b.schnorr, b.proof), b.memo, ())) (fun (a, b, (c, d), e, _) => .ok ⟨a, b, c, d, e⟩)

/-- `BarToAbarNote`, bar_to_abar.rs:38-44 -/
def jBarToAbarNote : Codec (BarToAbarNote S Q K Pf) :=
  (Rec.cons (ascii! "body") (jBarToAbarBody L R bls pf blsR pfR pt sc ptR scR) <|
    Rec.cons (ascii! "signature") (jLeaf sg R.sg) Rec.nil).codec.via
    (fun n => (n.body, n.signature, ())) (fun (a, b, _) => .ok ⟨a, b⟩)

variable {P : SimFr.Params} {G Mp : Type} (fpt : G → Bytes) (fsc : ZMod P.r → Bytes) (mul : Mp → Bytes) (fptR : Bytes → Res G)
  (fscR : Bytes → Res (ZMod P.r)) (mulR : Bytes → Res Mp)

/-- `AXfrAddressFoldingInstance`, address_folding.rs:22-32; the scalar multiplication proof is a newtype (crypto/src/bulletproofs/
scalar_mul.rs:56) -/
def jFold : Codec (FoldInst P K G Mp) :=
  (Rec.cons (ascii! "delegated_schnorr_proof") (jSchnorr bls blsR fpt fsc fptR fscR) <|
    Rec.cons (ascii! "scalar_mul_commitments") (jVec (jLeaf fpt fptR)) <|
    Rec.cons (ascii! "scalar_mul_proof") (jLeaf mul mulR) Rec.nil).codec.via
    (fun f => (f.schnorr, f.coms, f.mul, ())) (fun (a, b, c, _) => .ok ⟨a, b, c⟩)

/-- `AbarToArBody`, abar_to_ar.rs:63-75 -/
def jAbarToArBody : Codec (K × BlindAssetRecord S × K × UInt64 × Option S.OM × Unit) :=
  (Rec.cons (ascii! "input") (jLeaf bls blsR) <| Rec.cons (ascii! "output") (jBar L R) <| Rec.cons (ascii! "merkle_root") (jLeaf bls blsR) <|
    Rec.cons (ascii! "merkle_root_version") jU64 <| Rec.cons (ascii! "memo") (jOwnerMemo L R lay) Rec.nil).codec

/-- `AbarToArNote`, abar_to_ar.rs:41-50 -/
def jAbarToArNote : Codec (AbarToArNote S P K Pf G Mp × UInt64 × Option S.OM) :=
  (Rec.cons (ascii! "body") (jAbarToArBody L R lay bls blsR) <| Rec.cons (ascii! "proof") (jPlonk.via pf pfR) <|
    Rec.cons (ascii! "folding_instance") (jFold bls blsR fpt fsc mul fptR fscR mulR) Rec.nil).codec.via
    (fun n => ((n.1.input, n.1.output, n.1.root, n.2.1, n.2.2, ()), n.1.proof, n.1.folding, ()))
    (fun ((i, o, r, v, m, _), p, f, _) => .ok (⟨i, o, r, p, f⟩, v, m))

/-- `AbarToBarBody`, abar_to_bar.rs:77-94 -/
def jAbarToBarBody : Codec (K × BlindAssetRecord S × DelegatedSchnorr.Proof (ZMod Q.r) S.G K × K × UInt64 × Option S.OM × Unit) :=
  (Rec.cons (ascii! "input") (jLeaf bls blsR) <| Rec.cons (ascii! "output") (jBar L R) <|
    Rec.cons (ascii! "delegated_schnorr_proof") (jSchnorr bls blsR pt sc ptR scR) <| Rec.cons (ascii! "merkle_root") (jLeaf bls blsR) <|
    Rec.cons (ascii! "merkle_root_version") jU64 <| Rec.cons (ascii! "memo") (jOwnerMemo L R lay) Rec.nil).codec

/-- `AbarToBarNote`, abar_to_bar.rs:50-60 -/
def jAbarToBarNote : Codec (AbarToBarNote S P Q K Pf G Mp × UInt64 × Option S.OM) :=
  (Rec.cons (ascii! "body") (jAbarToBarBody L R lay bls blsR pt sc ptR scR) <| Rec.cons (ascii! "proof") (jPlonk.via pf pfR) <|
    Rec.cons (ascii! "folding_instance") (jFold bls blsR fpt fsc mul fptR fscR mulR) Rec.nil).codec.via
    (fun n => ((n.1.input, n.1.output, n.1.schnorr, n.1.root, n.2.1, n.2.2, ()), n.1.proof, n.1.folding, ()))
    (fun ((i, o, s, r, v, m, _), p, f, _) => .ok (⟨i, o, s, r, p, f⟩, v, m))

/-- `AXfrBody`, abar_to_abar.rs:61-76 -/
def jAXfrBody {A : Type} (apk : A → Bytes) (apkR : Bytes → Res A) : Codec (Anon.XfrBody K A) :=
  (Rec.cons (ascii! "inputs") (jVec (jLeaf bls blsR)) <| Rec.cons (ascii! "outputs") (jVec (jAbar bls blsR)) <|
    Rec.cons (ascii! "merkle_root") (jLeaf bls blsR) <| Rec.cons (ascii! "merkle_root_version") jU64 <| Rec.cons (ascii! "fee") jU32 <|
    Rec.cons (ascii! "owner_memos") (jVec (jAMemo apk apkR)) Rec.nil).codec.via
    (fun b => (b.inputs, b.outputs, b.root, b.version, b.fee, b.memos, ())) (fun (a, b, c, d, e, f, _) => .ok ⟨a, b, c, d, e, f⟩)

/-- `AXfrNote`, abar_to_abar.rs:40-48 -/
def jAXfrNote {A : Type} (apk : A → Bytes) (apkR : Bytes → Res A) : Codec (Anon.XfrNote P K A Pf G Mp) :=
  (Rec.cons (ascii! "body") (jAXfrBody bls blsR apk apkR) <| Rec.cons (ascii! "proof") (jPlonk.via pf pfR) <|
    Rec.cons (ascii! "folding_instance") (jFold bls blsR fpt fsc mul fptR fscR mulR) Rec.nil).codec.via
    (fun n => (n.body, n.proof, n.folding, ())) (fun (a, b, c, _) => .ok ⟨a, b, c⟩)

variable {L R sg lay bls pf blsR pfR pt sc ptR scR fpt fsc mul fptR fscR mulR} (hR : R.Of L sg) (hl : ∀ m, (lay m).Fits m)
  (hb : ∀ x, blsR (bls x) = .ok x) (hp : ∀ x, pfR (pf x) = .ok x)
  (ht : ∀ x, ptR (pt x) = .ok x) (hs : ∀ x, scR (sc x) = .ok x)
  (hft : ∀ x, fptR (fpt x) = .ok x) (hfs : ∀ x, fscR (fsc x) = .ok x) (hmul : ∀ x, mulR (mul x) = .ok x)

theorem good_aMemo {A : Type} {apk : A → Bytes} {apkR : Bytes → Res A} (ha : ∀ x, apkR (apk x) = .ok x) : (jAMemo apk apkR).Good 2 :=
  good_via (good_rec (rc (good_leaf ha) <| rc (good_vec good_u8) rec_good_nil)) (fun _ => rfl)

theorem good_aMemoBytes : jAMemoBytes.Good 2 := good_via (good_aMemo (fun _ => rfl)) (fun _ => rfl)

include hb

theorem good_abar : (jAbar bls blsR).Good 1 := good_via (good_rec (rc (good_leaf hb) rec_good_nil)) (fun _ => rfl)

theorem good_schnorr {G F : Type} {pt : G → Bytes} {sc : F → Bytes} {ptR : Bytes → Res G} {scR : Bytes → Res F}
    (ht : ∀ x, ptR (pt x) = .ok x) (hs : ∀ x, scR (sc x) = .ok x) : (jSchnorr bls blsR pt sc ptR scR).Good 3 :=
  good_via (good_rec (rc (good_leaf hb) <| rc (good_vec (good_leaf ht)) <| rc (good_vec (good_pair (good_leaf hs) (good_leaf hs))) <|
    rc good_unit rec_good_nil)) (fun _ => rfl)

include hft hfs hmul in
theorem good_fold : (jFold bls blsR fpt fsc mul fptR fscR mulR).Good 4 :=
  good_via (good_rec (rc (good_schnorr hb hft hfs) <| rc (good_vec (good_leaf hft)) <| rc (good_leaf hmul) rec_good_nil)) (fun _ => rfl)

include hp

include hR in
theorem good_arToAbarNote : (jArToAbarNote L R sg bls pf blsR pfR).Good 5 :=
  good_via (good_rec (rc (c := jArToAbarBody L R bls pf blsR pfR) (good_via (good_rec (rc (good_bar hR) <| rc (good_abar hb) <|
    rc (good_via good_plonk hp) <| rc good_aMemoBytes rec_good_nil)) (fun _ => rfl)) <| rc (good_leaf hR.sg) rec_good_nil)) (fun _ => rfl)

include hR ht hs in
theorem good_barToAbarNote : (jBarToAbarNote L R sg bls pf blsR pfR pt sc ptR scR).Good 6 :=
  good_via (good_rec (rc (c := jBarToAbarBody L R bls pf blsR pfR pt sc ptR scR) (good_via (good_rec (rc (good_bar hR) <|
    rc (good_abar hb) <| rc (good_pair (good_schnorr hb ht hs) (good_via good_plonk hp)) <| rc good_aMemoBytes rec_good_nil))
    (fun _ => rfl)) <| rc (good_leaf hR.sg) rec_good_nil)) (fun _ => rfl)

include hft hfs hmul

include hR hl in
theorem good_abarToArNote : (jAbarToArNote L R lay bls pf blsR pfR fpt fsc mul fptR fscR mulR).Good 5 :=
  good_via (good_rec (rc (c := jAbarToArBody L R lay bls blsR) (good_rec (rc (good_leaf hb) <| rc (good_bar hR) <| rc (good_leaf hb) <|
    rc good_u64 <| rc (good_ownerMemo hR hl) rec_good_nil)) <| rc (good_via good_plonk hp) <|
    rc (good_fold hb hft hfs hmul) rec_good_nil)) (fun _ => rfl)

include hR hl ht hs in
theorem good_abarToBarNote : (jAbarToBarNote L R lay bls pf blsR pfR pt sc ptR scR fpt fsc mul fptR fscR mulR).Good 5 :=
  good_via (good_rec (rc (c := jAbarToBarBody L R lay bls blsR pt sc ptR scR) (good_rec (rc (good_leaf hb) <| rc (good_bar hR) <|
    rc (good_schnorr hb ht hs) <| rc (good_leaf hb) <| rc good_u64 <| rc (good_ownerMemo hR hl) rec_good_nil)) <|
    rc (good_via good_plonk hp) <| rc (good_fold hb hft hfs hmul) rec_good_nil)) (fun _ => rfl)

theorem good_axfrNote {A : Type} {apk : A → Bytes} {apkR : Bytes → Res A} (ha : ∀ x, apkR (apk x) = .ok x) :
    (jAXfrNote bls pf blsR pfR fpt fsc mul fptR fscR mulR apk apkR).Good 5 :=
  good_via (good_rec (rc (c := jAXfrBody bls blsR apk apkR) (good_via (good_rec (rc (good_vec (good_leaf hb)) <|
    rc (good_vec (good_abar hb)) <| rc (good_leaf hb) <| rc good_u64 <| rc good_u32 <| rc (good_vec (good_aMemo ha)) rec_good_nil))
    (fun _ => rfl)) <| rc (good_via good_plonk hp) <| rc (good_fold hb hft hfs hmul) rec_good_nil)) (fun _ => rfl)

end

/-! ### Properties -/

section
variable {S : Types} {L : Leaves S} {R : Parse S} {sg : S.Sg → Bytes} {lay : WMemo → Layout} {K Pf : Type} {bls : K → Bytes} {pf : Pf → WPlonk}
  {blsR : Bytes → Res K} {pfR : WPlonk → Res Pf} {Q : SimFr.Params} {pt : S.G → Bytes} {sc : ZMod Q.r → Bytes} {ptR : Bytes → Res S.G}
  {scR : Bytes → Res (ZMod Q.r)} {P : SimFr.Params} {G Mp : Type} {fpt : G → Bytes} {fsc : ZMod P.r → Bytes} {mul : Mp → Bytes}
  {fptR : Bytes → Res G} {fscR : Bytes → Res (ZMod P.r)} {mulR : Bytes → Res Mp}
  (hR : R.Of L sg) (hl : ∀ m, (lay m).Fits m)
  (hb : ∀ x, blsR (bls x) = .ok x) (hp : ∀ x, pfR (pf x) = .ok x) (ht : ∀ x, ptR (pt x) = .ok x) (hs : ∀ x, scR (sc x) = .ok x)
  (hft : ∀ x, fptR (fpt x) = .ok x) (hfs : ∀ x, fscR (fsc x) = .ok x) (hmul : ∀ x, mulR (mul x) = .ok x)

/-- the reader does not know in which layout the memos were written -/
theorem xfrNote_reader (lay' : WMemo → Layout) : fromJson (jXfrNote L R sg lay) = fromJson (jXfrNote L R sg lay') := rfl

theorem abarToAr_reader (lay' : WMemo → Layout) : fromJson (jAbarToArNote L R lay bls pf blsR pfR fpt fsc mul fptR fscR mulR) =
    fromJson (jAbarToArNote L R lay' bls pf blsR pfR fpt fsc mul fptR fscR mulR) := rfl

theorem abarToBar_reader (lay' : WMemo → Layout) :
    fromJson (jAbarToBarNote L R lay bls pf blsR pfR pt sc ptR scR fpt fsc mul fptR fscR mulR) =
    fromJson (jAbarToBarNote L R lay' bls pf blsR pfR pt sc ptR scR fpt fsc mul fptR fscR mulR) := rfl

include hR hl in
/-- C106: A transfer note in JSON is read back, as `serde_json` or anyone else writes it: with any spaces between the tokens, with the
members of every object in any order, with owner memos in any layout that can express them, the old names of their fields included. -/
theorem C106_transfer (n : XfrNote S) {j : Json} (hj : Reord ((jXfrNote L R sg lay).ser n) j) {t : Bytes} (h : Writes j t) (w v : Bytes)
    (hw : Spaces w) (hv : Spaces v) : fromJson (jXfrNote L R sg (fun _ => newLayout)) (w ++ (t ++ v)) = .ok n :=
  xfrNote_reader (lay := lay) (fun _ => newLayout) ▸ fromJson_writes (good_xfrNote hR hl) (by decide) n hj h w v hw hv

include hR in
/-- C106: in particular what `serde_json::to_string` makes -/
theorem C106_transfer_to_string (n : XfrNote S) :
    fromJson (jXfrNote L R sg (fun _ => newLayout)) (toJson (jXfrNote L R sg (fun _ => newLayout)) n) = .ok n :=
  fromJson_toJson (good_xfrNote hR newLayout_fits) (by decide) n

include hb hp

include hR in
/-- C106: the notes that lead into the anonymous pool -/
theorem C106_ar_to_abar (n : ArToAbarNote S K Pf) {j : Json} (hj : Reord ((jArToAbarNote L R sg bls pf blsR pfR).ser n) j) {t : Bytes}
    (h : Writes j t) (w v : Bytes) (hw : Spaces w) (hv : Spaces v) :
    fromJson (jArToAbarNote L R sg bls pf blsR pfR) (w ++ (t ++ v)) = .ok n :=
  fromJson_writes (good_arToAbarNote hR hb hp) (by decide) n hj h w v hw hv

include hR ht hs in
/-- C106: the same for confidential records -/
theorem C106_bar_to_abar (n : BarToAbarNote S Q K Pf) {j : Json} (hj : Reord ((jBarToAbarNote L R sg bls pf blsR pfR pt sc ptR scR).ser n) j)
    {t : Bytes} (h : Writes j t) (w v : Bytes) (hw : Spaces w) (hv : Spaces v) :
    fromJson (jBarToAbarNote L R sg bls pf blsR pfR pt sc ptR scR) (w ++ (t ++ v)) = .ok n :=
  fromJson_writes (good_barToAbarNote hR hb hp ht hs) (by decide) n hj h w v hw hv

include hft hfs hmul

/-- C106: anonymous transfers -/
theorem C106_anonymous_transfer {A : Type} {apk : A → Bytes} {apkR : Bytes → Res A} (ha : ∀ x, apkR (apk x) = .ok x)
    (n : Anon.XfrNote P K A Pf G Mp) {j : Json} (hj : Reord ((jAXfrNote bls pf blsR pfR fpt fsc mul fptR fscR mulR apk apkR).ser n) j) {t : Bytes}
    (h : Writes j t) (w v : Bytes) (hw : Spaces w) (hv : Spaces v) :
    fromJson (jAXfrNote bls pf blsR pfR fpt fsc mul fptR fscR mulR apk apkR) (w ++ (t ++ v)) = .ok n :=
  fromJson_writes (good_axfrNote hb hp hft hfs hmul ha) (by decide) n hj h w v hw hv

include hR hl

/-- C106: the notes that lead out of the pool, the owner memo in any layout -/
theorem C106_abar_to_ar (n : AbarToArNote S P K Pf G Mp × UInt64 × Option S.OM) {j : Json}
    (hj : Reord ((jAbarToArNote L R lay bls pf blsR pfR fpt fsc mul fptR fscR mulR).ser n) j) {t : Bytes}
    (h : Writes j t) (w v : Bytes) (hw : Spaces w) (hv : Spaces v) :
    fromJson (jAbarToArNote L R (fun _ => newLayout) bls pf blsR pfR fpt fsc mul fptR fscR mulR) (w ++ (t ++ v)) = .ok n :=
  abarToAr_reader (lay := lay) (fun _ => newLayout) ▸ fromJson_writes (good_abarToArNote hR hl hb hp hft hfs hmul) (by decide) n hj h w v hw hv

include ht hs

/-- C106: the same to a confidential record -/
theorem C106_abar_to_bar (n : AbarToBarNote S P Q K Pf G Mp × UInt64 × Option S.OM) {j : Json}
    (hj : Reord ((jAbarToBarNote L R lay bls pf blsR pfR pt sc ptR scR fpt fsc mul fptR fscR mulR).ser n) j) {t : Bytes}
    (h : Writes j t) (w v : Bytes) (hw : Spaces w) (hv : Spaces v) :
    fromJson (jAbarToBarNote L R (fun _ => newLayout) bls pf blsR pfR pt sc ptR scR fpt fsc mul fptR fscR mulR) (w ++ (t ++ v)) = .ok n :=
  abarToBar_reader (lay := lay) (fun _ => newLayout) ▸ fromJson_writes (good_abarToBarNote hR hl hb hp ht hs hft hfs hmul) (by decide) n hj h w v hw hv

end

/-! ### Documents made by someone else -/

/-- the value of a first field of a struct that was read was read -/
theorem rec_first {σ α β : Type} {name : Bytes} {c : Codec α} {r : Rec σ β} {l : List (Bytes × Json)} {x : α × β}
    (h : (Rec.cons name c r).codec.de (.obj l) = .ok x) {v : Json} (hv : (name, v) ∈ l) : ∃ a, c.de v = .ok a := by
  obtain ⟨st, h1, -⟩ := Res.bind_eq_ok.mp h
  clear h
  generalize (Rec.cons name c r).init = s at h1
  induction l generalizing s with
  | nil => simp at hv
  | cons y l ih =>
    rw [List.foldlM_cons] at h1
    obtain ⟨s1, h2, h3⟩ := Res.bind_eq_ok.mp h1
    rcases List.mem_cons.mp hv with rfl | hv
    · simp only [Rec.cons, if_true] at h2
      split at h2
      · cases h2
      · obtain ⟨a, ha, -⟩ := Res.bind_eq_ok.mp h2
        exact ⟨a, ha⟩
    · exact ih hv s1 h3

/-- C106: A document cannot say two things.  A note with a field of the note given twice, or a field of its body, is not read, whatever
else it contains. -/
theorem C106_twice_refused {S : Types} {L : Leaves S} {R : Parse S} {sg : S.Sg → Bytes} (hR : R.Of L sg) (l : List (Bytes × Json)) (t : Bytes)
    (h : Writes (.obj l) t) (hd : (Json.obj l).depth < 128) (name : Bytes) (hn :
      (name ∈ [ascii! "body", ascii! "multisig"] ∧ 2 ≤ (l.map Prod.fst).count name) ∨
      (name ∈ [ascii! "inputs", ascii! "outputs", ascii! "proofs", ascii! "asset_tracing_memos", ascii! "owners_memos"] ∧
        ∃ b, (ascii! "body", Json.obj b) ∈ l ∧ 2 ≤ (b.map Prod.fst).count name)) (n : XfrNote S) :
    fromJson (jXfrNote L R sg (fun _ => newLayout)) t ≠ .ok n := by
  intro hok
  have ht := parseJson_writes h hd [] [] (fun _ h => by cases h) (fun _ h => by cases h)
  rw [List.nil_append, List.append_nil] at ht
  unfold fromJson at hok
  rw [ht, Res.ofOption_some, Res.bind_ok] at hok
  obtain ⟨x, hx, -⟩ := Res.bind_eq_ok.mp hok
  rcases hn with ⟨h1, h2⟩ | ⟨h1, b, hb, h2⟩
  · exact rec_twice (rc (good_xfrBody hR newLayout_fits) <| rc (good_rec (rc (good_vec (good_leaf hR.sg)) rec_good_nil)) rec_good_nil)
      name h1 l h2 x hx
  · obtain ⟨a, ha⟩ := rec_first hx hb
    obtain ⟨y, hy, -⟩ := Res.bind_eq_ok.mp ha
    exact rec_twice (rc (good_vec (good_bar hR)) <| rc (good_vec (good_bar hR)) <| rc (good_proofs hR) <|
      rc (good_vec (good_vec (good_tracerMemo hR))) <| rc (good_vec (good_ownerMemo hR newLayout_fits)) rec_good_nil) name h1 b h2 y hy

/-- C106: A document can make the reader panic: it needs no more than the body with one owner memo whose blind share, under its old name,
does not have 32 bytes.  The rest of the note is not looked at. -/
theorem C106_hostile_violated {S : Types} (L : Leaves S) (R : Parse S) (sg : S.Sg → Bytes) (share : Bytes) (h : share.length ≠ 32) :
    fromJson (jXfrNote L R sg (fun _ => newLayout)) ((Json.obj [(ascii! "body", .obj [(ascii! "owners_memos",
      .arr [.obj [(ascii! "blind_share", .str (b64enc share))]])])]).text) = .panic := by
  unfold fromJson
  rw [parseJson_text _ (by simp [Json.depth, membersDepth, elemsDepth]), Res.ofOption_some, Res.bind_ok]
  have hm : deMemo (.obj [(ascii! "blind_share", .str (b64enc share))]) = .panic := by
    have e : jsonWire.edwards (.str (b64enc share)) = .panic := by
      have := str_json share
      simp only [Wire.edwards]
      rw [show jsonWire.str (.str (b64enc share)) = some share from this]
      simp only [Res.ofOption_some, Res.bind_ok, if_neg h]
    have hv : jsonWire.visitMap [("blind_share", Json.str (b64enc share))] = .panic := by
      simp only [Wire.visitMap, List.foldlM_cons, Wire.mapStep, Field.ofName]
      simp [e]
    simp only [deMemo, List.map_cons, List.map_nil]
    rw [show memoName (ascii! "blind_share") = "blind_share" by decide, hv]
    rfl
  have hn : (jOwnerMemo L R (fun _ => newLayout)).de (.obj [(ascii! "blind_share", .str (b64enc share))]) = .panic := by
    change (deMemo (.obj [(ascii! "blind_share", .str (b64enc share))]) >>= R.om >>= fun a => (Res.ok (some a) : Res (Option S.OM))) = .panic
    rw [hm]
    rfl
  have hv : (jVec (jOwnerMemo L R (fun _ => newLayout))).de (.arr [.obj [(ascii! "blind_share", .str (b64enc share))]]) = .panic := by
    simp only [jVec, deList, hn]
    rfl
  have hb : (jXfrBody L R (fun _ => newLayout)).de (.obj [(ascii! "owners_memos",
      .arr [.obj [(ascii! "blind_share", .str (b64enc share))]])]) = .panic := by
    simp only [jXfrBody, Codec.via, Rec.codec, Rec.cons, Rec.nil, List.foldlM_cons]
    simp [hv]
  simp only [jXfrNote, Codec.via, Rec.codec, Rec.cons, Rec.nil, List.foldlM_cons]
  simp [hb]

end Verif.Serde
