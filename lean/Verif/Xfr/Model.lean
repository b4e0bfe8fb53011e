import Mathlib.Algebra.Module.Basic
import Mathlib.Data.Nat.Log
import Mathlib.Data.List.Sort
import Verif.Bytes

/-!
Model of confidential transfers: `api/src/xfr/{mod,proofs,structs}.rs` (amounts, asset types, proof
dispatch, tracing).  External components (curve points, range proofs, R1CS proofs, signatures,
serialisation) are the fields of `Ext`.
-/

namespace Verif.Xfr

/-- the types of external objects -/
structure Types where
  /-- scalars of the Ristretto group -/
  F : Type
  /-- points -/
  G : Type
  /-- compressed points -/
  CG : Type
  /-- asset types -/
  AT : Type
  /-- public keys -/
  PK : Type
  /-- record data encryption keys of a tracer -/
  EK : Type
  /-- ElGamal ciphertexts in tracer memos -/
  Ct : Type
  /-- identity reveal policies, with the attribute encryption key -/
  IP : Type
  /-- encrypted attributes -/
  ACt : Type
  /-- identity (confidential credential) proofs -/
  IPf : Type
  /-- credential commitments -/
  SC : Type
  /-- Bulletproofs range proofs -/
  RP : Type
  /-- multi-commitment Chaum-Pedersen proofs -/
  AP : Type
  /-- asset mixing proofs -/
  MP : Type
  /-- Pedersen-ElGamal equality proofs -/
  TPf : Type
  /-- owner memos -/
  OM : Type
  /-- key pairs -/
  KP : Type
  /-- signatures -/
  Sg : Type

variable (S : Types)

/-- models api/src/xfr/structs.rs:117-123 -/
inductive XfrAmount where
  | conf (lo hi : S.CG)
  | plain (a : UInt64)

/-- models api/src/xfr/structs.rs:194-199 -/
inductive XfrAssetType where
  | conf (c : S.CG)
  | plain (t : S.AT)

/-- models api/src/xfr/structs.rs:96-103 -/
structure BlindAssetRecord where
  amount : XfrAmount S
  assetType : XfrAssetType S
  publicKey : S.PK

/-- models api/src/xfr/structs.rs:579-592 -/
structure OpenAssetRecord where
  bar : BlindAssetRecord S
  amount : UInt64
  amountBlinds : S.F × S.F
  assetType : S.AT
  typeBlind : S.F

/-- models api/src/xfr/structs.rs:349-357; of `enc_keys` only the record data key is used by the
functions modelled here, the attribute key is part of `IP`. -/
structure TracingPolicy where
  encKey : S.EK
  assetTracing : Bool
  identityTracing : Option S.IP

/-- models api/src/xfr/structs.rs:371-383.  `encKey` is the record data key of `enc_key`; its other two keys and the hybrid
ciphertext `lock_info` (ciphertext and ephemeral key) are given by their bytes, since the functions modelled here do not read
them (`Verif/Xfr/TracerMemo.lean` models the encryption). -/
structure TracerMemo where
  encKey : S.EK
  lockAmount : Option (S.Ct × S.Ct)
  lockAssetType : Option S.Ct
  lockAttributes : List S.ACt
  attrsEncKey : Bytes
  lockInfoEncKey : Bytes
  lockInfo : Bytes × Bytes

/-- models api/src/xfr/structs.rs:614-627 -/
structure AssetRecord where
  oar : OpenAssetRecord S
  tracingPolicies : List (TracingPolicy S)
  identityProofs : List (Option S.IPf)
  tracersMemos : List (TracerMemo S)
  ownerMemo : Option S.OM

/-- models api/src/xfr/structs.rs:683-692 (`XfrRangeProof`) -/
structure RangeProof where
  proof : S.RP
  diffLow : S.CG
  diffHigh : S.CG

/-- models api/src/xfr/structs.rs:646-657 -/
inductive AmountProof where
  | assetMix (p : S.MP)
  | confAmount (p : RangeProof S)
  | confAsset (p : S.AP)
  | confAll (p : RangeProof S) (q : S.AP)
  | noProof

/-- models api/src/xfr/structs.rs:80-91, 661-681 -/
structure XfrBody where
  inputs : List (BlindAssetRecord S)
  outputs : List (BlindAssetRecord S)
  amountProof : AmountProof S
  tracingProofs : List S.TPf
  inputsIdentityProofs : List (List (Option S.IPf))
  outputsIdentityProofs : List (List (Option S.IPf))
  tracingMemos : List (List (TracerMemo S))
  ownersMemos : List (Option S.OM)

/-- models api/src/xfr/structs.rs:71-76 and api/src/xfr/sig.rs:657-661 -/
structure XfrNote where
  body : XfrBody S
  signatures : List S.Sg

/-- models api/src/xfr/mod.rs:555-561 -/
structure Policies where
  valid : Bool
  inputsPolicies : List (List (TracingPolicy S))
  inputsSigComs : List (Option S.SC)
  outputsPolicies : List (List (TracingPolicy S))
  outputsSigComs : List (Option S.SC)

/-- External functions.  Provers are modelled as deterministic functions (one fixed choice of
randomness); the theorems hold for every such choice.  A prover that returns `Err` gives `none`. -/
structure Ext where
  decompress : S.CG → Option S.G
  compress : S.G → S.CG
  /-- `CompressedRistretto::identity()` -/
  identityC : S.CG
  /-- `pc_gens.B` and `pc_gens.B_blinding` -/
  B : S.G
  Bb : S.G
  /-- `AssetType::as_scalar` -/
  asScalar : S.AT → S.F
  /-- `prove_ranges` with range 2^32: values and blindings -/
  proveRanges : List UInt64 → List S.F → Option (S.RP × List S.CG)
  /-- `batch_verify_ranges` with range 2^32 -/
  batchRanges : List (S.RP × List S.CG) → Bool
  /-- `chaum_pedersen_prove_multiple_eq` -/
  proveAsset : S.F → List S.G → List S.F → Option S.AP
  /-- `chaum_pedersen_batch_verify_multiple_eq` -/
  batchAsset : List (List S.G × S.AP) → Bool
  /-- `prove_asset_mixing` -/
  proveMix : List (UInt64 × S.F × S.F × S.F) → List (UInt64 × S.F × S.F × S.F) → Option S.MP
  /-- `batch_verify_asset_mixing` -/
  batchMix : List (List (S.CG × S.CG) × List (S.CG × S.CG) × S.MP) → Bool
  /-- `pedersen_elgamal_aggregate_eq_proof` -/
  provePeg : List S.F → List S.F → S.EK → List S.Ct → List S.G → S.TPf
  /-- `pedersen_elgamal_batch_verify` -/
  batchPeg : List (S.EK × List S.Ct × List S.G × S.TPf) → Bool
  /-- `ac_confidential_verify` -/
  acVerify : S.IP → S.SC → List S.ACt → S.IPf → Bool
  /-- `rmp_serde` serialisation of a body -/
  ser : XfrBody S → Option Bytes
  /-- `XfrPublicKey::zei_to_bytes` -/
  pkBytes : S.PK → Bytes
  /-- `XfrPublicKey::verify` -/
  sigVerify : S.PK → Bytes → S.Sg → Bool
  /-- public key of a key pair -/
  kpPub : S.KP → S.PK
  /-- `XfrKeyPair::sign` -/
  kpSign : S.KP → Bytes → Option S.Sg

variable {S}

/-- models api/src/xfr/structs.rs:149-154 -/
def XfrAmount.getAmount : XfrAmount S → Option UInt64
  | .plain a => some a
  | .conf _ _ => none

/-- models api/src/xfr/structs.rs:167-172 -/
def XfrAmount.getCommitments : XfrAmount S → Option (S.CG × S.CG)
  | .conf lo hi => some (lo, hi)
  | .plain _ => none

/-- models api/src/xfr/structs.rs:136-138 -/
def XfrAmount.isConfidential : XfrAmount S → Bool
  | .conf _ _ => true
  | .plain _ => false

/-- models api/src/xfr/structs.rs:226-231 -/
def XfrAssetType.getAssetType : XfrAssetType S → Option S.AT
  | .plain t => some t
  | .conf _ => none

/-- models api/src/xfr/structs.rs:244-249 -/
def XfrAssetType.getCommitment : XfrAssetType S → Option S.CG
  | .conf c => some c
  | .plain _ => none

/-- models api/src/xfr/structs.rs:212-214 -/
def XfrAssetType.isConfidential : XfrAssetType S → Bool
  | .conf _ => true
  | .plain _ => false

/-- the type `AssetRecordType` of a record is the pair of its two confidentiality flags, models
api/src/xfr/structs.rs:107-112 and api/src/xfr/asset_record.rs:18-78 -/
def BlindAssetRecord.recordType (r : BlindAssetRecord S) : Bool × Bool :=
  (r.amount.isConfidential, r.assetType.isConfidential)

/-- models algebra/src/utils.rs:43-45 -/
def splitU64 (x : UInt64) : UInt32 × UInt32 := ((x &&& 0xFFFFFFFF).toUInt32, (x >>> 32).toUInt32)

/-- models algebra/src/utils.rs:38-40 for arguments below `2^32`; the floating point `log2` is taken
to be exact (`0` gives `2^(-inf) = 0`). -/
def minPow2 (n : Nat) : Nat := if n = 0 then 0 else 2 ^ Nat.clog 2 n

/-- models api/src/xfr/mod.rs:40 -/
def POW_2_32 : Nat := 0xFFFFFFFF + 1

/-! ### Plain checks -/

/-- a `HashMap<AssetType, Vec<i128>>`: association list, keys unique -/
abbrev AmountMap (S : Types) := List (S.AT × List Int)

section
variable [DecidableEq S.AT]

/-- the `match amounts.get_mut(..)` of api/src/xfr/mod.rs:409-419 (and 423-433, 730-752, 756-778) -/
def AmountMap.push (m : AmountMap S) (t : S.AT) (x : Int) : AmountMap S :=
  match m with
  | [] => [(t, [x])]
  | (t', v) :: m => if t' = t then (t', v ++ [x]) :: m else (t', v) :: AmountMap.push m t x

/-- the closing loop of api/src/xfr/mod.rs:436-441 and 781-786; `i128` sums cannot overflow for any
number of `u64` terms that fits in memory and are unbounded here -/
def AmountMap.allZero (m : AmountMap S) : Bool := m.all (fun e => e.2.sum == 0)

/-- models api/src/xfr/mod.rs:405-444 -/
def checkAssetAmount (inputs outputs : List (AssetRecord S)) : Bool :=
  let m := inputs.foldl (fun m r => AmountMap.push m r.oar.assetType r.oar.amount.toNat) []
  let m := outputs.foldl (fun m r => AmountMap.push m r.oar.assetType (-(r.oar.amount.toNat : Int))) m
  AmountMap.allZero m

/-- one iteration of the loops of `verify_plain_asset_mix`: `sign` is `1` in the first and `-1` in the
second, models api/src/xfr/mod.rs:729-753 and 755-779 -/
def plainMixStep (sign : Int) (m : AmountMap S) (r : BlindAssetRecord S) : Option (AmountMap S) := do
  let t ← r.assetType.getAssetType
  let a ← r.amount.getAmount
  pure (AmountMap.push m t (sign * a.toNat))

/-- models api/src/xfr/mod.rs:726-788 -/
def verifyPlainAssetMix (inputs outputs : List (BlindAssetRecord S)) : Option Unit := do
  let m ← inputs.foldlM (plainMixStep 1) []
  let m ← outputs.foldlM (plainMixStep (-1)) m
  if AmountMap.allZero m then some () else none

/-- models api/src/xfr/mod.rs:679-681; `u128` sums cannot overflow for a list that fits in memory -/
def safeSumU64 (terms : List UInt64) : Nat := (terms.map UInt64.toNat).sum

/-- models api/src/xfr/mod.rs:683-701 -/
def verifyPlainAmounts (inputs outputs : List (BlindAssetRecord S)) : Option Unit := do
  let ins ← inputs.mapM (fun x => x.amount.getAmount)
  let outs ← outputs.mapM (fun x => x.amount.getAmount)
  if safeSumU64 ins ≠ safeSumU64 outs then none else some ()

/-- `Itertools::all_equal` -/
def allEqual {α : Type} [DecidableEq α] : List α → Bool
  | [] => true
  | x :: xs => xs.all (fun y => x == y)

/-- models api/src/xfr/mod.rs:703-724 -/
def verifyPlainAsset (inputs outputs : List (BlindAssetRecord S)) : Option Unit := do
  let l1 ← inputs.mapM (fun x => x.assetType.getAssetType)
  let l2 ← outputs.mapM (fun x => x.assetType.getAssetType)
  if allEqual (l1 ++ l2) then some () else none

/-- models api/src/xfr/mod.rs:45-58 -/
inductive XfrType where
  | nonConfSingle
  | confAmountSingle
  | confAssetSingle
  | confSingle
  | confMulti
  | nonConfMulti
  deriving DecidableEq

/-- flags of the loop of api/src/xfr/mod.rs:65-91: multi asset, confidential amount only,
confidential type only, both -/
abbrev XfrFlags := Bool × Bool × Bool × Bool

/-- models api/src/xfr/mod.rs:71-91 (one iteration) -/
def xfrTypeStep (t0 : S.AT) (f : XfrFlags) (r : AssetRecord S) : XfrFlags :=
  let (multi, ca, ct, all) := f
  let multi := if t0 ≠ r.oar.assetType then true else multi
  let confAmount := r.oar.bar.amount.isConfidential
  let confType := r.oar.bar.assetType.isConfidential
  if confAmount && confType then (multi, ca, ct, true)
  else if confAmount then (multi, true, ct, all)
  else if confType then (multi, ca, true, all)
  else (multi, ca, ct, all)

/-- models api/src/xfr/mod.rs:61-114; `none` is the panic of `inputs_record[0]` on no inputs -/
def xfrTypeOf (inputs outputs : List (AssetRecord S)) : Option XfrType :=
  match inputs with
  | [] => none
  | r0 :: _ =>
    let (multi, ca, ct, all) := (inputs ++ outputs).foldl (xfrTypeStep r0.oar.assetType)
      (false, false, false, false)
    some <|
      if multi then
        if all || ca || ct then .confMulti else .nonConfMulti
      else if all || (ca && ct) then .confSingle
      else if ca then .confAmountSingle
      else if ct then .confAssetSingle
      else .nonConfSingle

end

/-- models api/src/xfr/mod.rs:327-338 -/
def checkKeys [DecidableEq S.PK] (E : Ext S) (inputs : List (AssetRecord S)) (keys : List S.KP) : Bool :=
  inputs.length == keys.length &&
    (inputs.zip keys).all (fun e => e.1.oar.bar.publicKey == E.kpPub e.2)

/-! ### Amount and asset type proofs -/

section
variable [Field S.F] [AddCommGroup S.G] [Module S.F S.G] [DecidableEq S.CG] (E : Ext S)

/-- models crypto/src/basic/pedersen_comm.rs:45-53 -/
def Ext.commit (v r : S.F) : S.G := v • E.B + r • E.Bb

/-- models algebra/src/utils.rs:43-45 followed by the conversions to scalars -/
def limbs (a : UInt64) : S.F × S.F := (((splitU64 a).1.toNat : S.F), ((splitU64 a).2.toNat : S.F))

/-- the pair of low/high commitments of a record's amount, models api/src/xfr/proofs.rs:613-629 and
636-648, api/src/xfr/mod.rs:801-815 -/
def Ext.amountComs (a : XfrAmount S) : Option (S.G × S.G) :=
  match a with
  | .conf lo hi => do
    let l ← E.decompress lo
    let h ← E.decompress hi
    pure (l, h)
  | .plain a => some (E.commit (limbs a).1 0, E.commit (limbs a).2 0)

/-- totals of low and high commitments, models api/src/xfr/proofs.rs:610-632 -/
def Ext.totalComs (rs : List (BlindAssetRecord S)) : Option (S.G × S.G) :=
  rs.foldlM (fun acc r => do
    let c ← E.amountComs r.amount
    pure (acc.1 + c.1, acc.2 + c.2)) (0, 0)

/-- models api/src/xfr/proofs.rs:598-686 -/
def Ext.extractValueCommitments (inputs outputs : List (BlindAssetRecord S)) (p : RangeProof S) :
    Option (List S.CG) := do
  let n := outputs.length
  let upper := minPow2 (2 * n + 2)
  let tin ← E.totalComs inputs
  let outComs ← outputs.mapM (fun r => E.amountComs r.amount)
  let tout ← E.totalComs outputs
  let derived := (tin.1 - tout.1) + ((POW_2_32 : Nat) : S.F) • (tin.2 - tout.2)
  let dl ← E.decompress p.diffLow
  let dh ← E.decompress p.diffHigh
  let proofDiff := dl + ((POW_2_32 : Nat) : S.F) • dh
  if E.compress derived ≠ E.compress proofDiff then none
  else
    let coms := outComs.flatMap (fun c => [E.compress c.1, E.compress c.2]) ++ [p.diffLow, p.diffHigh]
    pure (coms ++ List.replicate (upper - coms.length) E.identityC)

/-- models api/src/xfr/proofs.rs:570-596 -/
def Ext.batchConfidentialAmount
    (l : List (List (BlindAssetRecord S) × List (BlindAssetRecord S) × RangeProof S)) : Option Unit := do
  let coms ← l.mapM (fun e => E.extractValueCommitments e.1 e.2.1 e.2.2)
  if E.batchRanges ((l.map (fun e => e.2.2.proof)).zip coms) then some () else none

/-- models the closure of api/src/xfr/proofs.rs:735-740 -/
def Ext.typeCom (t : XfrAssetType S) : Option S.G :=
  match t with
  | .conf c => E.decompress c
  | .plain t => some (E.commit (E.asScalar t) 0)

/-- models api/src/xfr/proofs.rs:720-746 -/
def Ext.batchConfidentialAsset
    (l : List (List (BlindAssetRecord S) × List (BlindAssetRecord S) × S.AP)) : Option Unit := do
  let inst ← l.mapM (fun e => do
    let coms ← (e.1 ++ e.2.1).mapM (fun r => E.typeCom r.assetType)
    pure (coms, e.2.2))
  if E.batchAsset inst then some () else none

/-- models api/src/xfr/mod.rs:795-836 -/
def Ext.processBars (bars : List (BlindAssetRecord S)) : Option (List (S.CG × S.CG)) :=
  bars.mapM fun x => do
    let (lo, hi) ← E.amountComs x.amount
    let comAmount := E.compress (lo + ((POW_2_32 : Nat) : S.F) • hi)
    let comType := match x.assetType with
      | .conf c => c
      | .plain t => E.compress (E.commit (E.asScalar t) 0)
    pure (comAmount, comType)

/-- models api/src/xfr/mod.rs:790-850 -/
def Ext.batchAssetMix
    (l : List (List (BlindAssetRecord S) × List (BlindAssetRecord S) × S.MP)) : Option Unit := do
  let inst ← l.mapM (fun e => do
    let i ← E.processBars e.1
    let o ← E.processBars e.2.1
    pure (i, o, e.2.2))
  if E.batchMix inst then some () else none

variable [DecidableEq S.AT]

/-- the three lists of deferred checks of api/src/xfr/mod.rs:505-507 -/
structure Deferred (S : Types) where
  amounts : List (List (BlindAssetRecord S) × List (BlindAssetRecord S) × RangeProof S)
  assets : List (List (BlindAssetRecord S) × List (BlindAssetRecord S) × S.AP)
  mixes : List (List (BlindAssetRecord S) × List (BlindAssetRecord S) × S.MP)

omit [Field S.F] [AddCommGroup S.G] [Module S.F S.G] [DecidableEq S.CG] in
/-- models one iteration of api/src/xfr/mod.rs:509-541 -/
def dispatch (d : Deferred S) (b : XfrBody S) : Option (Deferred S) :=
  match b.amountProof with
  | .confAll p q => some
    { d with
      amounts := d.amounts ++ [(b.inputs, b.outputs, p)]
      assets := d.assets ++ [(b.inputs, b.outputs, q)] }
  | .confAmount p => do
    verifyPlainAsset b.inputs b.outputs
    pure { d with amounts := d.amounts ++ [(b.inputs, b.outputs, p)] }
  | .confAsset q => do
    verifyPlainAmounts b.inputs b.outputs
    pure { d with assets := d.assets ++ [(b.inputs, b.outputs, q)] }
  | .noProof => do
    verifyPlainAssetMix b.inputs b.outputs
    pure d
  | .assetMix p => some { d with mixes := d.mixes ++ [(b.inputs, b.outputs, p)] }

/-- models api/src/xfr/mod.rs:500-551 -/
def Ext.batchAssetRecords (bodies : List (XfrBody S)) : Option Unit := do
  let d ← bodies.foldlM dispatch ⟨[], [], []⟩
  E.batchConfidentialAmount d.amounts
  E.batchConfidentialAsset d.assets
  E.batchAssetMix d.mixes

/-! ### Provers -/

/-- models api/src/xfr/proofs.rs:563-568 -/
def addBlindings (oar : List (OpenAssetRecord S)) : S.F × S.F :=
  oar.foldl (fun acc x => (acc.1 + x.amountBlinds.1, acc.2 + x.amountBlinds.2)) (0, 0)

/-- sum of `u64` amounts, models api/src/xfr/proofs.rs:507 and 509: overflow panics in a checked build
(`none`) -/
def sumU64 (l : List UInt64) : Option UInt64 :=
  l.foldlM (fun acc x => if acc.toNat + x.toNat < 2 ^ 64 then some (acc + x) else none) 0

/-- models api/src/setup.rs (constant) -/
def MAX_CONFIDENTIAL_RECORD_NUMBER : Nat := 128

/-- models api/src/xfr/proofs.rs:494-561; `none` is `Err` or a panic (overflowing sum of `u64`
amounts in a checked build, or `prove_ranges` returning too few commitments) -/
def Ext.genRangeProof (inputs outputs : List (OpenAssetRecord S)) : Option (RangeProof S) := do
  let n := outputs.length
  let upper := minPow2 (2 * (n + 1))
  if upper > MAX_CONFIDENTIAL_RECORD_NUMBER then none
  else do
    let inTotal ← sumU64 (inputs.map (·.amount))
    let outTotal ← sumU64 (outputs.map (·.amount))
    let diff ← if inTotal ≥ outTotal then some (inTotal - outTotal) else none
    let vals := (outputs.map (·.amount)).flatMap (fun a => [((splitU64 a).1.toUInt64), (splitU64 a).2.toUInt64])
      ++ [(splitU64 diff).1.toUInt64, (splitU64 diff).2.toUInt64]
    let vals := (vals ++ List.replicate (upper - vals.length) 0).take upper
    let bi := addBlindings inputs
    let bo := addBlindings outputs
    let blinds := outputs.flatMap (fun o => [o.amountBlinds.1, o.amountBlinds.2]) ++
      [bi.1 - bo.1, bi.2 - bo.2]
    let blinds := blinds ++ List.replicate (upper - blinds.length) 0
    let (rp, coms) ← E.proveRanges vals blinds
    let dl ← coms[2 * n]?
    let dh ← coms[2 * n + 1]?
    pure { proof := rp, diffLow := dl, diffHigh := dh }

/-- models the closure of api/src/xfr/proofs.rs:698-704 -/
def Ext.proverTypeCom (x : OpenAssetRecord S) : Option S.G :=
  match x.bar.assetType with
  | .conf c => E.decompress c
  | .plain t => some (E.commit (E.asScalar t) x.typeBlind)

/-- models api/src/xfr/proofs.rs:689-718 -/
def Ext.assetProof (inputs outputs : List (OpenAssetRecord S)) : Option S.AP := do
  let coms ← (inputs ++ outputs).mapM E.proverTypeCom
  let blinds := (inputs ++ outputs).map (·.typeBlind)
  let first ← inputs.head?
  E.proveAsset (E.asScalar first.assetType) coms blinds

/-- models api/src/xfr/mod.rs:350-355 -/
def Ext.mixInput (x : OpenAssetRecord S) : UInt64 × S.F × S.F × S.F :=
  (x.amount, E.asScalar x.assetType, x.amountBlinds.1 + ((POW_2_32 : Nat) : S.F) * x.amountBlinds.2, x.typeBlind)

/-- models api/src/xfr/mod.rs:340-376 -/
def Ext.genMulti (inputs outputs : List (OpenAssetRecord S)) (t : XfrType) : Option (AmountProof S) :=
  match t with
  | .confMulti => do
    let p ← E.proveMix (inputs.map E.mixInput) (outputs.map E.mixInput)
    pure (.assetMix p)
  | .nonConfMulti => some .noProof
  | _ => none

/-- models api/src/xfr/mod.rs:378-402 -/
def Ext.genSingle (inputs outputs : List (OpenAssetRecord S)) (t : XfrType) : Option (AmountProof S) :=
  match t with
  | .nonConfSingle => some .noProof
  | .confAmountSingle => do
    let p ← E.genRangeProof inputs outputs
    pure (.confAmount p)
  | .confAssetSingle => do
    let q ← E.assetProof inputs outputs
    pure (.confAsset q)
  | .confSingle => do
    let p ← E.genRangeProof inputs outputs
    let q ← E.assetProof inputs outputs
    pure (.confAll p q)
  | _ => none

end

/-! ### Tracing -/

section
variable [DecidableEq S.EK]

/-- `map.entry(key).or_insert(vec![]).push(x)` on a `LinearMap` -/
def entryPush {K V : Type} [DecidableEq K] (m : List (K × List V)) (k : K) (v : V) : List (K × List V) :=
  match m with
  | [] => [(k, [v])]
  | (k', vs) :: m => if k' = k then (k', vs ++ [v]) :: m else (k', vs) :: entryPush m k v

/-- models api/src/xfr/proofs.rs:130-150 -/
def collectRecordsAndMemos (records : List (AssetRecord S)) :
    List (S.EK × List (AssetRecord S × TracerMemo S)) :=
  records.foldl (fun m r =>
    (r.tracingPolicies.zip r.tracersMemos).foldl (fun m pm =>
      if pm.1.assetTracing && r.oar.bar.recordType != (false, false) then
        entryPush m pm.1.encKey (r, pm.2)
      else m) m) []

/-- models the loop of api/src/xfr/proofs.rs:204-221 -/
def collectBars (m : List (S.EK × List (BlindAssetRecord S × TracerMemo S)))
    (policies : List (List (TracingPolicy S))) (bars : List (BlindAssetRecord S))
    (memos : List (List (TracerMemo S))) : List (S.EK × List (BlindAssetRecord S × TracerMemo S)) :=
  ((policies.zip bars).zip memos).foldl (fun m e =>
    if e.1.2.recordType == (false, false) then m
    else (e.1.1.zip e.2).foldl (fun m pm =>
      if pm.1.assetTracing then entryPush m pm.1.encKey (e.1.2, pm.2) else m) m) m

/-- models api/src/xfr/proofs.rs:198-223 (with `check`, lines 189-195) -/
def collectBarsChecked (m : List (S.EK × List (BlindAssetRecord S × TracerMemo S)))
    (policies : List (List (TracingPolicy S))) (bars : List (BlindAssetRecord S))
    (memos : List (List (TracerMemo S))) :
    Option (List (S.EK × List (BlindAssetRecord S × TracerMemo S))) :=
  if policies.length ≠ bars.length ∨ bars.length ≠ memos.length then none
  else some (collectBars m policies bars memos)

/-- models api/src/xfr/proofs.rs:357-380; a memo list shorter than the inputs (slice panic) is `none` -/
def collectByKey (b : XfrBody S) (inPol outPol : List (List (TracingPolicy S))) :
    Option (List (S.EK × List (BlindAssetRecord S × TracerMemo S))) := do
  let n := b.inputs.length
  if b.tracingMemos.length < n then none
  else do
    let m ← collectBarsChecked [] inPol b.inputs (b.tracingMemos.take n)
    collectBarsChecked m outPol b.outputs (b.tracingMemos.drop n)

variable (E : Ext S)

omit [DecidableEq S.EK] in
/-- models one iteration of api/src/xfr/proofs.rs:447-487 -/
def Ext.ctextsOf (rm : BlindAssetRecord S × TracerMemo S) : Option (List S.Ct × List S.G) := do
  let (r, memo) := rm
  let a ← (match memo.lockAmount with
    | none => if r.amount.isConfidential then none else some ([], [])
    | some (c1, c2) => do
      let coms ← r.amount.getCommitments
      let l ← E.decompress coms.1
      let h ← E.decompress coms.2
      pure ([c1, c2], [l, h]) : Option (List S.Ct × List S.G))
  let t ← (match memo.lockAssetType with
    | none => if r.assetType.isConfidential then none else some ([], [])
    | some c => do
      let com ← r.assetType.getCommitment
      let g ← E.decompress com
      pure ([c], [g]) : Option (List S.Ct × List S.G))
  pure (a.1 ++ t.1, a.2 ++ t.2)

omit [DecidableEq S.EK] in
/-- models api/src/xfr/proofs.rs:442-489 -/
def Ext.extractCtexts (l : List (BlindAssetRecord S × TracerMemo S)) : Option (List S.Ct × List S.G) := do
  let r ← l.mapM E.ctextsOf
  pure (r.flatMap (·.1), r.flatMap (·.2))

/-- the instances of one body, models api/src/xfr/proofs.rs:311-342 for one body -/
def tracingInstances (b : XfrBody S) (inPol outPol : List (List (TracingPolicy S))) :
    Option (List (S.EK × List (BlindAssetRecord S × TracerMemo S))) := do
  let m ← collectByKey b inPol outPol
  if m.length ≠ b.tracingProofs.length then none else some m

/-- models api/src/xfr/proofs.rs:286-346: first loop over all bodies, then over all collected maps -/
def Ext.batchTracing (l : List (XfrBody S × List (List (TracingPolicy S)) × List (List (TracingPolicy S)))) :
    Option Unit := do
  let maps ← l.mapM (fun e => tracingInstances e.1 e.2.1 e.2.2)
  let inst ← ((maps.zip (l.map (·.1.tracingProofs))).flatMap (fun e => e.1.zip e.2)).mapM (fun e => do
    let cc ← E.extractCtexts e.1.2
    pure (e.1.1, cc.1, cc.2, e.2))
  if E.batchPeg inst then some () else none

omit [DecidableEq S.EK] in
/-- models api/src/xfr/proofs.rs:415-437: one policy of one record -/
def Ext.identityOk (sc : Option S.SC) (e : TracingPolicy S × TracerMemo S × Option S.IPf) : Bool :=
  match e.1.identityTracing, e.2.2 with
  | some ip, some pf =>
    match sc with
    | some sc => E.acVerify ip sc e.2.1.lockAttributes pf
    | none => false
  | none, none => true
  | _, _ => false

omit [DecidableEq S.EK] in
/-- models api/src/xfr/proofs.rs:382-440 -/
def Ext.verifyIdentityProofs (policies : List (List (TracingPolicy S))) (memos : List (List (TracerMemo S)))
    (proofs : List (List (Option S.IPf))) (sigComs : List (Option S.SC)) : Bool :=
  let n := policies.length
  if memos.length ≠ proofs.length ∨ n ≠ sigComs.length then false
  else if n = 0 ∧ ¬ (memos.all (·.isEmpty) ∧ proofs.all (·.isEmpty)) then false
  else if n ≠ 0 ∧ n ≠ memos.length then false
  else
    (policies.zip (memos.zip (proofs.zip sigComs))).all fun e =>
      (e.1.length == e.2.1.length && e.1.length == e.2.2.1.length) &&
        (e.1.zip (e.2.1.zip e.2.2.1)).all (E.identityOk e.2.2.2)

omit [DecidableEq S.EK] in
/-- the two calls of `verify_identity_proofs` for one body, models api/src/xfr/proofs.rs:264-281; a memo
list shorter than the inputs (slice panic) is `false` -/
def Ext.identityBody (b : XfrBody S) (p : Policies S) : Bool :=
  let n := b.inputs.length
  decide (n ≤ b.tracingMemos.length) &&
    (E.verifyIdentityProofs p.inputsPolicies (b.tracingMemos.take n) b.inputsIdentityProofs p.inputsSigComs &&
      E.verifyIdentityProofs p.outputsPolicies (b.tracingMemos.drop n) b.outputsIdentityProofs p.outputsSigComs)

/-- models api/src/xfr/proofs.rs:225-284 -/
def Ext.batchTracerTracing (bodies : List (XfrBody S)) (policies : List (Policies S)) : Option Unit := do
  if bodies.length ≠ policies.length then none
  else if ¬ policies.all (·.valid) then none
  else do
    E.batchTracing (bodies.zip (policies.map (fun p => (p.inputsPolicies, p.outputsPolicies))))
    if (bodies.zip policies).all (fun e => E.identityBody e.1 e.2) then some () else none

/-- the values, blindings, ciphertexts and commitments one record contributes to the tracing proof; the loop
body of api/src/xfr/proofs.rs:84-143 -/
def Ext.tracingParts [Field S.F] (rm : AssetRecord S × TracerMemo S) :
    Option (List S.F × List S.F × List S.Ct × List S.G) := do
  let a ← (match rm.1.oar.bar.amount with
    | .plain _ => some ([], [], [], [])
    | .conf lo hi => do
      let lk ← rm.2.lockAmount
      let l ← E.decompress lo
      let h ← E.decompress hi
      pure ([(limbs rm.1.oar.amount).1, (limbs rm.1.oar.amount).2],
        [rm.1.oar.amountBlinds.1, rm.1.oar.amountBlinds.2], [lk.1, lk.2], [l, h]) :
        Option (List S.F × List S.F × List S.Ct × List S.G))
  let t ← (match rm.1.oar.bar.assetType with
    | .plain _ => some ([], [], [], [])
    | .conf c => do
      let lk ← rm.2.lockAssetType
      let g ← E.decompress c
      pure ([E.asScalar rm.1.oar.assetType], [rm.1.oar.typeBlind], [lk], [g]) :
        Option (List S.F × List S.F × List S.Ct × List S.G))
  pure (a.1 ++ t.1, a.2.1 ++ t.2.1, a.2.2.1 ++ t.2.2.1, a.2.2.2 ++ t.2.2.2)

/-- models api/src/xfr/proofs.rs:66-123 -/
def Ext.buildTracingProof [Field S.F] (key : S.EK) (l : List (AssetRecord S × TracerMemo S)) : Option S.TPf := do
  let parts ← l.mapM E.tracingParts
  pure (E.provePeg (parts.flatMap (·.1)) (parts.flatMap (·.2.1)) key (parts.flatMap (·.2.2.1))
    (parts.flatMap (·.2.2.2)))

/-- models api/src/xfr/proofs.rs:38-64 -/
def Ext.assetAmountTracingProofs [Field S.F] (inputs outputs : List (AssetRecord S)) : Option (List S.TPf) :=
  (collectRecordsAndMemos (inputs ++ outputs)).mapM (fun e => E.buildTracingProof e.1 e.2)

end

/-! ### Signatures -/

/-- lexicographic order on byte strings, as `Ord for Vec<u8>` -/
def bytesLe : Bytes → Bytes → Bool
  | [], _ => true
  | _ :: _, [] => false
  | a :: as, b :: bs => if a < b then true else if b < a then false else bytesLe as bs

/-- models api/src/xfr/sig.rs:665-674.  `sort_unstable_by_key` is modelled by insertion sort; the
theorems hold for any sort, see `Verif/Xfr/MultiSig.lean`. -/
def Ext.multisigSign (E : Ext S) (keys : List S.KP) (msg : Bytes) : Option (List S.Sg) :=
  (keys.insertionSort (fun a b => bytesLe (E.pkBytes (E.kpPub a)) (E.pkBytes (E.kpPub b)) = true)).mapM
    (fun k => E.kpSign k msg)

/-- models api/src/xfr/sig.rs:677-688 -/
def Ext.multisigVerify (E : Ext S) (sigs : List S.Sg) (pks : List S.PK) (msg : Bytes) : Bool :=
  if pks.length ≠ sigs.length then false
  else
    ((pks.insertionSort (fun a b => bytesLe (E.pkBytes a) (E.pkBytes b) = true)).zip sigs).all
      (fun e => E.sigVerify e.1 msg e.2)

/-- models api/src/xfr/mod.rs:458-471 -/
def Ext.verifyTransferMultisig (E : Ext S) (note : XfrNote S) : Bool :=
  match E.ser note.body with
  | none => false
  | some bytes => E.multisigVerify note.signatures (note.body.inputs.map (·.publicKey)) bytes

/-! ### Whole transfers -/

section
variable [Field S.F] [AddCommGroup S.G] [Module S.F S.G] [DecidableEq S.CG] [DecidableEq S.AT]
  [DecidableEq S.EK] (E : Ext S)

/-- models api/src/xfr/mod.rs:664-675 -/
def Ext.batchVerifyBodies (bodies : List (XfrBody S)) (policies : List (Policies S)) : Option Unit := do
  E.batchAssetRecords bodies
  E.batchTracerTracing bodies policies

/-- models api/src/xfr/mod.rs:485-498 -/
def Ext.batchVerifyNotes (notes : List (XfrNote S)) (policies : List (Policies S)) : Option Unit :=
  if notes.all E.verifyTransferMultisig then E.batchVerifyBodies (notes.map (·.body)) policies else none

/-- models api/src/xfr/mod.rs:654-661 -/
def Ext.verifyBody (body : XfrBody S) (policies : Policies S) : Option Unit :=
  E.batchVerifyBodies [body] [policies]

/-- models api/src/xfr/mod.rs:474-481 -/
def Ext.verifyNote (note : XfrNote S) (policies : Policies S) : Option Unit :=
  E.batchVerifyNotes [note] [policies]

omit [DecidableEq S.CG] [DecidableEq S.AT] [DecidableEq S.EK] in
/-- the choice between single and multi asset proofs, models api/src/xfr/mod.rs:258-284 -/
def Ext.genAmountProof (oi oo : List (OpenAssetRecord S)) (t : XfrType) : Option (AmountProof S) :=
  match t with
  | .nonConfMulti => E.genMulti oi oo t
  | .confMulti => E.genMulti oi oo t
  | _ => E.genSingle oi oo t

/-- models api/src/xfr/mod.rs:243-325 -/
def Ext.genBody (inputs outputs : List (AssetRecord S)) : Option (XfrBody S) := do
  let t ← xfrTypeOf inputs outputs
  if ¬ checkAssetAmount inputs outputs then none
  else do
    let oi := inputs.map (·.oar)
    let oo := outputs.map (·.oar)
    let proof ← E.genAmountProof oi oo t
    let tracing ← E.assetAmountTracingProofs inputs outputs
    pure
      { inputs := oi.map (·.bar)
        outputs := oo.map (·.bar)
        amountProof := proof
        tracingProofs := tracing
        inputsIdentityProofs := inputs.map (·.identityProofs)
        outputsIdentityProofs := outputs.map (·.identityProofs)
        tracingMemos := (inputs ++ outputs).map (·.tracersMemos)
        ownersMemos := outputs.map (·.ownerMemo) }

/-- models api/src/xfr/mod.rs:177-193 and 447-455 -/
def Ext.genNote [DecidableEq S.PK] (inputs outputs : List (AssetRecord S)) (keys : List S.KP) :
    Option (XfrNote S) := do
  if inputs.isEmpty then none
  else if ¬ checkKeys E inputs keys then none
  else do
    let body ← E.genBody inputs outputs
    let bytes ← E.ser body
    let sigs ← E.multisigSign keys bytes
    pure { body := body, signatures := sigs }

end

end Verif.Xfr
