import Verif.Serde.Format
import Verif.Xfr.Model
import Verif.Anon.ConvertVerify

/-!
The serializers that `serde_derive` makes for the bodies of notes, generic in the format, and their injectivity.  Fields are written
in the order in which the structs declare them.  Points, scalars, keys and proofs of the Bulletproofs library are byte strings: they
are written with `serialize_bytes` of their `zei_to_bytes` in both formats (algebra/src/lib.rs:74-90, algebra/src/serialization.rs:
218-229, neither format being human readable).
-/

namespace Verif.Serde

open Verif.Xfr (Types XfrAmount XfrAssetType BlindAssetRecord TracerMemo RangeProof AmountProof XfrBody)
open Verif.Anon (ArToAbarBody BarToAbarBody)

/-! ### Proofs and ciphertexts -/

/-- models `ChaumPedersenProof`, crypto/src/basic/chaum_pedersen.rs:12-19 -/
structure WCp where
  c3 : Bytes
  c4 : Bytes
  z1 : Bytes
  z2 : Bytes
  z3 : Bytes

/-- models `ChaumPedersenProofX`, chaum_pedersen.rs:128-132 -/
structure WCpx where
  c1EqC2 : WCp
  zero : Option WCp

/-- models `PedersenElGamalEqProof`, crypto/src/basic/pedersen_elgamal.rs:10-25; of the ciphertext `e1` the bytes of its
`zei_to_bytes` -/
structure WPeg where
  z1 : Bytes
  z2 : Bytes
  e1 : Bytes
  c1 : Bytes

/-- models `CredentialPoK`, crypto/src/anon_creds.rs:137-144 -/
structure WPok where
  blinding : Bytes
  responseT : Bytes
  responseSk : Bytes
  responseAttrs : List Bytes

/-- models `ElGamalCiphertext`, crypto/src/basic/elgamal.rs:15-22 -/
structure WCt where
  e1 : Bytes
  e2 : Bytes

/-- models `CACPoK`, crypto/src/confidential_anon_creds.rs:102-111 -/
structure WCac where
  pok : WPok
  cmCt : List WCt
  responseRands : List Bytes

/-- models `OwnerMemo`, api/src/xfr/structs.rs:386-394; `keyType` is the number of the variant of `KeyType` (sig.rs:36-45) -/
structure WMemo where
  keyType : Fin 3
  blindShare : Bytes
  lock : Bytes

/-- models `PlonkProof`, plonk/src/plonk/indexer.rs:14-33 -/
structure WPlonk where
  cmW : List Bytes
  cmT : List Bytes
  cmZ : Bytes
  wEvals : List Bytes
  zEval : Bytes
  sEvals : List Bytes
  open1 : Bytes
  open2 : Bytes

section
variable (F : Format)

def serCp (p : WCp) : Bytes := F.tuple 5 ++ (F.bytes p.c3 ++ (F.bytes p.c4 ++ (F.bytes p.z1 ++ (F.bytes p.z2 ++ F.bytes p.z3))))

def serCpx (p : WCpx) : Bytes := F.tuple 2 ++ (serCp F p.c1EqC2 ++ serOption F (serCp F) p.zero)

def serPeg (p : WPeg) : Bytes := F.tuple 4 ++ (F.bytes p.z1 ++ (F.bytes p.z2 ++ (F.bytes p.e1 ++ F.bytes p.c1)))

def serPok (p : WPok) : Bytes :=
  F.tuple 4 ++ (F.bytes p.blinding ++ (F.bytes p.responseT ++ (F.bytes p.responseSk ++ serVec F F.bytes p.responseAttrs)))

def serCt (c : WCt) : Bytes := F.tuple 2 ++ (F.bytes c.e1 ++ F.bytes c.e2)

def serCac (p : WCac) : Bytes :=
  F.tuple 3 ++ (serPok F p.pok ++ (serVec F (serCt F) p.cmCt ++ serVec F F.bytes p.responseRands))

/-- names of the variants of `KeyType`, in ASCII -/
def keyTypeName : Fin 3 → Bytes
  | 0 => [69, 100, 50, 53, 53, 49, 57]
  | 1 => [83, 101, 99, 112, 50, 53, 54, 107, 49]
  | 2 => [65, 100, 100, 114, 101, 115, 115]

/-- the two byte vectors are sequences of integers: `Vec<u8>` is not written with `serialize_bytes` -/
def serMemo (m : WMemo) : Bytes :=
  F.tuple 3 ++ (F.variant false m.keyType.val (keyTypeName m.keyType) ++ (serVec F F.u8 m.blindShare ++ serVec F F.u8 m.lock))

def serPlonk (p : WPlonk) : Bytes :=
  F.tuple 8 ++ (serVec F F.bytes p.cmW ++ (serVec F F.bytes p.cmT ++ (F.bytes p.cmZ ++ (serVec F F.bytes p.wEvals ++
    (F.bytes p.zEval ++ (serVec F F.bytes p.sEvals ++ (F.bytes p.open1 ++ F.bytes p.open2)))))))

end

/-! ### Bodies -/

/-- `zei_to_bytes` of the objects in a transfer body, and the parts of the structured ones.  The type of an asset is an array of 32
bytes. -/
structure Leaves (S : Types) where
  cg : S.CG → Bytes
  at' : S.AT → { b : Bytes // b.length = 32 }
  pk : S.PK → Bytes
  ek : S.EK → Bytes
  ct : S.Ct → WCt
  act : S.ACt → WCt
  ipf : S.IPf → WCac
  rp : S.RP → Bytes
  ap : S.AP → WCpx
  mp : S.MP → Bytes
  tpf : S.TPf → WPeg
  om : S.OM → WMemo

/-- what the codecs of these objects guarantee: different objects have different bytes -/
structure Leaves.Inj {S : Types} (L : Leaves S) : Prop where
  cg : Function.Injective L.cg
  at' : Function.Injective L.at'
  pk : Function.Injective L.pk
  ek : Function.Injective L.ek
  ct : Function.Injective L.ct
  act : Function.Injective L.act
  ipf : Function.Injective L.ipf
  rp : Function.Injective L.rp
  ap : Function.Injective L.ap
  mp : Function.Injective L.mp
  tpf : Function.Injective L.tpf
  om : Function.Injective L.om

/-- `Confidential` and `NonConfidential`, in ASCII -/
def confName : Bytes := [67, 111, 110, 102, 105, 100, 101, 110, 116, 105, 97, 108]
def nonConfName : Bytes := [78, 111, 110, 67, 111, 110, 102, 105, 100, 101, 110, 116, 105, 97, 108]

/-- names of the variants of `AssetTypeAndAmountProof` (structs.rs:646-657), in ASCII -/
def proofName : Fin 5 → Bytes
  | 0 => [65, 115, 115, 101, 116, 77, 105, 120]
  | 1 => [67, 111, 110, 102, 65, 109, 111, 117, 110, 116]
  | 2 => [67, 111, 110, 102, 65, 115, 115, 101, 116]
  | 3 => [67, 111, 110, 102, 65, 108, 108]
  | 4 => [78, 111, 80, 114, 111, 111, 102]

section
variable (F : Format) {S : Types} (L : Leaves S)

/-- `XfrAmount`, structs.rs:117-123; a public amount is written with `serde_str`, as a decimal number -/
def serAmount : XfrAmount S → Bytes
  | .conf lo hi => F.variant true 0 confName ++ (F.tuple 2 ++ (F.bytes (L.cg lo) ++ F.bytes (L.cg hi)))
  | .plain a => F.variant true 1 nonConfName ++ F.str (decimal a.toNat)

/-- `XfrAssetType`, structs.rs:194-199, with `AssetType`, structs.rs:31-35: an array is written as a tuple of its elements -/
def serAssetType : XfrAssetType S → Bytes
  | .conf c => F.variant true 0 confName ++ F.bytes (L.cg c)
  | .plain t => F.variant true 1 nonConfName ++ (F.tuple 32 ++ (L.at' t).1.flatMap F.u8)

/-- `BlindAssetRecord`, structs.rs:96-103 -/
def serBar (r : BlindAssetRecord S) : Bytes :=
  F.tuple 3 ++ (serAmount F L r.amount ++ (serAssetType F L r.assetType ++ F.bytes (L.pk r.publicKey)))

/-- `TracerMemo`, structs.rs:371-383, with `AssetTracerEncKeys`, structs.rs:262-271, and `ZeiHybridCiphertext`,
crypto/src/basic/hybrid_encryption.rs:118-123 -/
def serTracerMemo (m : TracerMemo S) : Bytes :=
  F.tuple 5 ++ ((F.tuple 3 ++ (F.bytes (L.ek m.encKey) ++ (F.bytes m.attrsEncKey ++ F.bytes m.lockInfoEncKey))) ++
    (serOption F (fun c : S.Ct × S.Ct => F.tuple 2 ++ (serCt F (L.ct c.1) ++ serCt F (L.ct c.2))) m.lockAmount ++
    (serOption F (fun c => serCt F (L.ct c)) m.lockAssetType ++
    (serVec F (fun c => serCt F (L.act c)) m.lockAttributes ++
    (F.tuple 2 ++ (F.bytes m.lockInfo.1 ++ F.bytes m.lockInfo.2))))))

/-- `XfrRangeProof`, structs.rs:668-678 -/
def serRangeProof (p : RangeProof S) : Bytes :=
  F.tuple 3 ++ (F.bytes (L.rp p.proof) ++ (F.bytes (L.cg p.diffLow) ++ F.bytes (L.cg p.diffHigh)))

/-- `AssetTypeAndAmountProof`, structs.rs:646-657; boxes are transparent -/
def serAmountProof : AmountProof S → Bytes
  | .assetMix p => F.variant true 0 (proofName 0) ++ F.bytes (L.mp p)
  | .confAmount p => F.variant true 1 (proofName 1) ++ serRangeProof F L p
  | .confAsset p => F.variant true 2 (proofName 2) ++ serCpx F (L.ap p)
  | .confAll p q => F.variant true 3 (proofName 3) ++ (F.tuple 2 ++ (serRangeProof F L p ++ serCpx F (L.ap q)))
  | .noProof => F.variant false 4 (proofName 4)

/-- `Vec<Vec<Option<ACConfidentialRevealProof>>>` -/
def serIdentity (l : List (List (Option S.IPf))) : Bytes :=
  serVec F (serVec F (serOption F (fun p => serCac F (L.ipf p)))) l

/-- `XfrBody`, structs.rs:78-91, with `XfrProofs`, 659-666, and `AssetTracingProofs`, 680-692 -/
def serXfrBody (b : XfrBody S) : Bytes :=
  F.tuple 5 ++ (serVec F (serBar F L) b.inputs ++ (serVec F (serBar F L) b.outputs ++
    ((F.tuple 2 ++ (serAmountProof F L b.amountProof ++
      (F.tuple 3 ++ (serVec F (fun p => serPeg F (L.tpf p)) b.tracingProofs ++
        (serIdentity F L b.inputsIdentityProofs ++ serIdentity F L b.outputsIdentityProofs))))) ++
    (serVec F (serVec F (serTracerMemo F L)) b.tracingMemos ++
    serVec F (serOption F (fun m => serMemo F (L.om m))) b.ownersMemos))))

/-- `AxfrOwnerMemo`, api/src/anon_xfr/structs.rs:308-314: the bytes of the point, and the ciphertext as a sequence of integers -/
def serAxfrMemo (m : Bytes × Bytes) : Bytes := F.tuple 2 ++ (F.bytes m.1 ++ serVec F F.u8 m.2)

variable {K Pf : Type} (bls : K → Bytes) (pf : Pf → WPlonk)

/-- `ArToAbarBody`, ar_to_abar.rs:35-45, with `AnonAssetRecord`, structs.rs:35-39 -/
def serArToAbar (b : ArToAbarBody S K Pf) : Bytes :=
  F.tuple 4 ++ (serBar F L b.input ++ ((F.tuple 1 ++ F.bytes (bls b.output)) ++ (serPlonk F (pf b.proof) ++ serAxfrMemo F b.memo)))

variable {Q : SimFr.Params} (pt : S.G → Bytes) (sc : ZMod Q.r → Bytes)

/-- `DelegatedSchnorrProof`, crypto/src/delegated_schnorr.rs:11-22 -/
def serSchnorr (p : DelegatedSchnorr.Proof (ZMod Q.r) S.G K) : Bytes :=
  F.tuple 4 ++ (F.bytes (bls p.comm) ++ (serVec F (fun g => F.bytes (pt g)) p.randomizers ++
    (serVec F (fun e : ZMod Q.r × ZMod Q.r => F.tuple 2 ++ (F.bytes (sc e.1) ++ F.bytes (sc e.2))) p.responses ++ F.unitStruct)))

/-- `BarToAbarBody`, bar_to_abar.rs:47-61 -/
def serBarToAbar (b : BarToAbarBody S Q K Pf) : Bytes :=
  F.tuple 4 ++ (serBar F L b.input ++ ((F.tuple 1 ++ F.bytes (bls b.output)) ++
    ((F.tuple 2 ++ (serSchnorr F bls pt sc b.schnorr ++ serPlonk F (pf b.proof))) ++ serAxfrMemo F b.memo)))

end

/-! ### The encodings determine the values -/

section
variable {F : Format} (hF : F.Lawful)

include hF

theorem nonNil_bytes : NonNil F.bytes := fun a h => by
  have := hF.bytes_len a
  rw [h] at this
  simp at this

theorem nonNil_u8 : NonNil F.u8 := hF.u8_ne

theorem uniq_str : Uniq F.str := fun a b r s ha hb h =>
  hF.str a b r s (by have := hF.str_len a; omega) (by have := hF.str_len b; omega) h

theorem uniq_vecBytes : Uniq (serVec F F.bytes) := uniq_vec hF (uniq_bytes hF) (nonNil_bytes hF)

theorem uniq_vecU8 : Uniq (serVec F F.u8) := uniq_vec hF (uniq_u8 hF) (nonNil_u8 hF)

omit hF in
theorem Uniq.map {α β : Type} {enc : β → Bytes} (hU : Uniq enc) {f : α → β} (hf : Function.Injective f) :
    Uniq (fun a => enc (f a)) := by
  intro a b r s ha hb h
  obtain ⟨h1, h2⟩ := hU _ _ _ _ ha hb h
  exact ⟨hf h1, h2⟩

theorem uniq_cp : Uniq (serCp F) := by
  rintro ⟨a1, a2, a3, a4, a5⟩ ⟨b1, b2, b3, b4, b5⟩ r s ha hb h
  simp only [serCp, List.append_assoc, List.length_append] at ha hb h
  have h0 := List.append_cancel_left h
  obtain ⟨rfl, h1⟩ := uniq_bytes hF _ _ _ _ (by omega) (by omega) h0
  obtain ⟨rfl, h2⟩ := uniq_bytes hF _ _ _ _ (by omega) (by omega) h1
  obtain ⟨rfl, h3⟩ := uniq_bytes hF _ _ _ _ (by omega) (by omega) h2
  obtain ⟨rfl, h4⟩ := uniq_bytes hF _ _ _ _ (by omega) (by omega) h3
  obtain ⟨rfl, h5⟩ := uniq_bytes hF _ _ _ _ (by omega) (by omega) h4
  exact ⟨rfl, h5⟩

omit hF in
theorem headed_cp : Headed F (serCp F) := fun _ => ⟨_, _, rfl⟩

theorem uniq_cpx : Uniq (serCpx F) := by
  rintro ⟨a1, a2⟩ ⟨b1, b2⟩ r s ha hb h
  simp only [serCpx, List.append_assoc, List.length_append] at ha hb h
  have h0 := List.append_cancel_left h
  obtain ⟨rfl, h1⟩ := uniq_cp hF _ _ _ _ (by omega) (by omega) h0
  obtain ⟨rfl, h2⟩ := uniq_option hF (uniq_cp hF) headed_cp _ _ _ _ (by omega) (by omega) h1
  exact ⟨rfl, h2⟩

theorem uniq_peg : Uniq (serPeg F) := by
  rintro ⟨a1, a2, a3, a4⟩ ⟨b1, b2, b3, b4⟩ r s ha hb h
  simp only [serPeg, List.append_assoc, List.length_append] at ha hb h
  have h0 := List.append_cancel_left h
  obtain ⟨rfl, h1⟩ := uniq_bytes hF _ _ _ _ (by omega) (by omega) h0
  obtain ⟨rfl, h2⟩ := uniq_bytes hF _ _ _ _ (by omega) (by omega) h1
  obtain ⟨rfl, h3⟩ := uniq_bytes hF _ _ _ _ (by omega) (by omega) h2
  obtain ⟨rfl, h4⟩ := uniq_bytes hF _ _ _ _ (by omega) (by omega) h3
  exact ⟨rfl, h4⟩

theorem nonNil_peg : NonNil (serPeg F) := fun p h => by
  simp only [serPeg, List.append_eq_nil_iff] at h
  exact nonNil_bytes hF _ h.2.1

theorem uniq_ct : Uniq (serCt F) := by
  rintro ⟨a1, a2⟩ ⟨b1, b2⟩ r s ha hb h
  simp only [serCt, List.append_assoc, List.length_append] at ha hb h
  have h0 := List.append_cancel_left h
  obtain ⟨rfl, h1⟩ := uniq_bytes hF _ _ _ _ (by omega) (by omega) h0
  obtain ⟨rfl, h2⟩ := uniq_bytes hF _ _ _ _ (by omega) (by omega) h1
  exact ⟨rfl, h2⟩

theorem nonNil_ct : NonNil (serCt F) := fun p h => by
  simp only [serCt, List.append_eq_nil_iff] at h
  exact nonNil_bytes hF _ h.2.1

theorem uniq_pok : Uniq (serPok F) := by
  rintro ⟨a1, a2, a3, a4⟩ ⟨b1, b2, b3, b4⟩ r s ha hb h
  simp only [serPok, List.append_assoc, List.length_append] at ha hb h
  have h0 := List.append_cancel_left h
  obtain ⟨rfl, h1⟩ := uniq_bytes hF _ _ _ _ (by omega) (by omega) h0
  obtain ⟨rfl, h2⟩ := uniq_bytes hF _ _ _ _ (by omega) (by omega) h1
  obtain ⟨rfl, h3⟩ := uniq_bytes hF _ _ _ _ (by omega) (by omega) h2
  obtain ⟨rfl, h4⟩ := uniq_vecBytes hF _ _ _ _ (by omega) (by omega) h3
  exact ⟨rfl, h4⟩

theorem uniq_cac : Uniq (serCac F) := by
  rintro ⟨a1, a2, a3⟩ ⟨b1, b2, b3⟩ r s ha hb h
  simp only [serCac, List.append_assoc, List.length_append] at ha hb h
  have h0 := List.append_cancel_left h
  obtain ⟨rfl, h1⟩ := uniq_pok hF _ _ _ _ (by omega) (by omega) h0
  obtain ⟨rfl, h2⟩ := uniq_vec hF (uniq_ct hF) (nonNil_ct hF) _ _ _ _ (by omega) (by omega) h1
  obtain ⟨rfl, h3⟩ := uniq_vecBytes hF _ _ _ _ (by omega) (by omega) h2
  exact ⟨rfl, h3⟩

theorem nonNil_cac : NonNil (serCac F) := fun p h => by
  simp only [serCac, serPok, List.append_eq_nil_iff] at h
  exact nonNil_bytes hF _ h.2.1.2.1

omit hF in
theorem keyTypeName_inj : ∀ i j, keyTypeName i = keyTypeName j → i = j := by decide

omit hF in
theorem proofName_inj : ∀ i j, proofName i = proofName j → i = j := by decide

theorem uniq_memo : Uniq (serMemo F) := by
  rintro ⟨a1, a2, a3⟩ ⟨b1, b2, b3⟩ r s ha hb h
  simp only [serMemo, List.append_assoc, List.length_append] at ha hb h
  have h0 := List.append_cancel_left h
  have hk : ∀ i, (keyTypeName i).length < 2 ^ 32 := by decide
  have e : a1 = b1 := by
    rcases hF.variant _ _ _ _ _ _ _ _ (by omega) (by omega) (hk _) (hk _) h0 with e | e
    · exact Fin.ext e
    · exact keyTypeName_inj _ _ e
  subst e
  obtain ⟨rfl, h2⟩ := uniq_vecU8 hF _ _ _ _ (by omega) (by omega) (List.append_cancel_left h0)
  obtain ⟨rfl, h3⟩ := uniq_vecU8 hF _ _ _ _ (by omega) (by omega) h2
  exact ⟨rfl, h3⟩

theorem nonNil_memo : NonNil (serMemo F) := fun p h => by
  simp only [serMemo, List.append_eq_nil_iff] at h
  exact hF.variant_ne _ _ _ h.2.1

theorem uniq_plonk : Uniq (serPlonk F) := by
  rintro ⟨a1, a2, a3, a4, a5, a6, a7, a8⟩ ⟨b1, b2, b3, b4, b5, b6, b7, b8⟩ r s ha hb h
  simp only [serPlonk, List.append_assoc, List.length_append] at ha hb h
  have h0 := List.append_cancel_left h
  obtain ⟨rfl, h1⟩ := uniq_vecBytes hF _ _ _ _ (by omega) (by omega) h0
  obtain ⟨rfl, h2⟩ := uniq_vecBytes hF _ _ _ _ (by omega) (by omega) h1
  obtain ⟨rfl, h3⟩ := uniq_bytes hF _ _ _ _ (by omega) (by omega) h2
  obtain ⟨rfl, h4⟩ := uniq_vecBytes hF _ _ _ _ (by omega) (by omega) h3
  obtain ⟨rfl, h5⟩ := uniq_bytes hF _ _ _ _ (by omega) (by omega) h4
  obtain ⟨rfl, h6⟩ := uniq_vecBytes hF _ _ _ _ (by omega) (by omega) h5
  obtain ⟨rfl, h7⟩ := uniq_bytes hF _ _ _ _ (by omega) (by omega) h6
  obtain ⟨rfl, h8⟩ := uniq_bytes hF _ _ _ _ (by omega) (by omega) h7
  exact ⟨rfl, h8⟩

theorem uniq_axfrMemo : Uniq (serAxfrMemo F) := by
  rintro ⟨a1, a2⟩ ⟨b1, b2⟩ r s ha hb h
  simp only [serAxfrMemo, List.append_assoc, List.length_append] at ha hb h
  have h0 := List.append_cancel_left h
  obtain ⟨rfl, h1⟩ := uniq_bytes hF _ _ _ _ (by omega) (by omega) h0
  obtain ⟨rfl, h2⟩ := uniq_vecU8 hF _ _ _ _ (by omega) (by omega) h1
  exact ⟨rfl, h2⟩

variable {S : Types} {L : Leaves S} (hL : L.Inj)

include hL

theorem uniq_amount : Uniq (serAmount F L) := by
  have hne : confName ≠ nonConfName := by decide
  have l1 : confName.length < 2 ^ 32 := by decide
  have l2 : nonConfName.length < 2 ^ 32 := by decide
  rintro (⟨a1, a2⟩ | a) (⟨b1, b2⟩ | b) r s ha hb h <;>
    simp only [serAmount, List.append_assoc, List.length_append] at ha hb h
  · have h0 := List.append_cancel_left (List.append_cancel_left h)
    obtain ⟨e1, h1⟩ := uniq_bytes hF _ _ _ _ (by omega) (by omega) h0
    obtain ⟨e2, h2⟩ := uniq_bytes hF _ _ _ _ (by omega) (by omega) h1
    rw [hL.cg e1, hL.cg e2]
    exact ⟨rfl, h2⟩
  · rcases hF.variant _ _ _ _ _ _ _ _ (by omega) (by omega) l1 l2 h with e | e
    · cases e
    · exact absurd e hne
  · rcases hF.variant _ _ _ _ _ _ _ _ (by omega) (by omega) l2 l1 h with e | e
    · cases e
    · exact absurd e.symm hne
  · obtain ⟨e1, h1⟩ := uniq_str hF _ _ _ _ (by omega) (by omega) (List.append_cancel_left h)
    rw [UInt64.toNat_inj.mp (decimal_inj e1)]
    exact ⟨rfl, h1⟩

theorem uniq_assetType : Uniq (serAssetType F L) := by
  have hne : confName ≠ nonConfName := by decide
  have l1 : confName.length < 2 ^ 32 := by decide
  have l2 : nonConfName.length < 2 ^ 32 := by decide
  rintro (a | a) (b | b) r s ha hb h <;>
    simp only [serAssetType, List.append_assoc, List.length_append] at ha hb h
  · obtain ⟨e1, h1⟩ := uniq_bytes hF _ _ _ _ (by omega) (by omega) (List.append_cancel_left h)
    rw [hL.cg e1]
    exact ⟨rfl, h1⟩
  · rcases hF.variant _ _ _ _ _ _ _ _ (by omega) (by omega) l1 l2 h with e | e
    · cases e
    · exact absurd e hne
  · rcases hF.variant _ _ _ _ _ _ _ _ (by omega) (by omega) l2 l1 h with e | e
    · cases e
    · exact absurd e.symm hne
  · obtain ⟨e1, h1⟩ := uniq_elements (uniq_u8 hF) _ _ _ _ (by rw [(L.at' a).2, (L.at' b).2]) (by omega) (by omega)
      (List.append_cancel_left (List.append_cancel_left h))
    rw [hL.at' (Subtype.ext e1)]
    exact ⟨rfl, h1⟩

theorem uniq_bar : Uniq (serBar F L) := by
  rintro ⟨a1, a2, a3⟩ ⟨b1, b2, b3⟩ r s ha hb h
  simp only [serBar, List.append_assoc, List.length_append] at ha hb h
  have h0 := List.append_cancel_left h
  obtain ⟨rfl, h1⟩ := uniq_amount hF hL _ _ _ _ (by omega) (by omega) h0
  obtain ⟨rfl, h2⟩ := uniq_assetType hF hL _ _ _ _ (by omega) (by omega) h1
  obtain ⟨e, h3⟩ := uniq_bytes hF _ _ _ _ (by omega) (by omega) h2
  rw [hL.pk e]
  exact ⟨rfl, h3⟩

omit hL in
theorem nonNil_bar : NonNil (serBar F L) := fun p h => by
  simp only [serBar, List.append_eq_nil_iff] at h
  exact nonNil_bytes hF _ h.2.2.2

theorem uniq_tracerMemo : Uniq (serTracerMemo F L) := by
  have u1 : Uniq (fun c : S.Ct × S.Ct => F.tuple 2 ++ (serCt F (L.ct c.1) ++ serCt F (L.ct c.2))) := by
    rintro ⟨a1, a2⟩ ⟨b1, b2⟩ r s ha hb h
    simp only [List.append_assoc, List.length_append] at ha hb h
    obtain ⟨e1, h1⟩ := uniq_ct hF _ _ _ _ (by omega) (by omega) (List.append_cancel_left h)
    obtain ⟨e2, h2⟩ := uniq_ct hF _ _ _ _ (by omega) (by omega) h1
    rw [hL.ct e1, hL.ct e2]
    exact ⟨rfl, h2⟩
  rintro ⟨a1, a2, a3, a4, a5, a6, a7, a8⟩ ⟨b1, b2, b3, b4, b5, b6, b7, b8⟩ r s ha hb h
  simp only [serTracerMemo, List.append_assoc, List.length_append] at ha hb h
  have h0 := List.append_cancel_left (List.append_cancel_left h)
  obtain ⟨e, h1⟩ := uniq_bytes hF _ _ _ _ (by omega) (by omega) h0
  obtain rfl := hL.ek e
  obtain ⟨rfl, h2⟩ := uniq_bytes hF _ _ _ _ (by omega) (by omega) h1
  obtain ⟨rfl, h3⟩ := uniq_bytes hF _ _ _ _ (by omega) (by omega) h2
  obtain ⟨rfl, h4⟩ := uniq_option hF u1 (fun _ => ⟨_, _, rfl⟩) _ _ _ _ (by omega) (by omega) h3
  obtain ⟨rfl, h5⟩ := uniq_option hF ((uniq_ct hF).map hL.ct) (fun _ => ⟨_, _, rfl⟩) _ _ _ _ (by omega) (by omega) h4
  obtain ⟨rfl, h6⟩ := uniq_vec hF ((uniq_ct hF).map hL.act) (fun _ => nonNil_ct hF _) _ _ _ _ (by omega) (by omega) h5
  obtain ⟨rfl, h7⟩ := uniq_bytes hF _ _ _ _ (by omega) (by omega) (List.append_cancel_left h6)
  obtain ⟨rfl, h8⟩ := uniq_bytes hF _ _ _ _ (by omega) (by omega) h7
  exact ⟨rfl, h8⟩

omit hL in
theorem nonNil_tracerMemo : NonNil (serTracerMemo F L) := fun p h => by
  simp only [serTracerMemo, List.append_eq_nil_iff] at h
  exact nonNil_bytes hF _ h.2.1.2.1

theorem uniq_rangeProof : Uniq (serRangeProof F L) := by
  rintro ⟨a1, a2, a3⟩ ⟨b1, b2, b3⟩ r s ha hb h
  simp only [serRangeProof, List.append_assoc, List.length_append] at ha hb h
  have h0 := List.append_cancel_left h
  obtain ⟨e1, h1⟩ := uniq_bytes hF _ _ _ _ (by omega) (by omega) h0
  obtain ⟨e2, h2⟩ := uniq_bytes hF _ _ _ _ (by omega) (by omega) h1
  obtain ⟨e3, h3⟩ := uniq_bytes hF _ _ _ _ (by omega) (by omega) h2
  rw [hL.rp e1, hL.cg e2, hL.cg e3]
  exact ⟨rfl, h3⟩

/-- number of the variant of a proof -/
def proofTag {S : Types} : AmountProof S → Fin 5
  | .assetMix _ => 0
  | .confAmount _ => 1
  | .confAsset _ => 2
  | .confAll _ _ => 3
  | .noProof => 4

omit hF hL in
theorem serAmountProof_head (p : AmountProof S) :
    ∃ d t, serAmountProof F L p = F.variant d (proofTag p).val (proofName (proofTag p)) ++ t := by
  cases p
  · exact ⟨true, _, rfl⟩
  · exact ⟨true, _, rfl⟩
  · exact ⟨true, _, rfl⟩
  · exact ⟨true, _, rfl⟩
  · exact ⟨false, [], by simp [serAmountProof, proofTag]⟩

theorem uniq_amountProof : Uniq (serAmountProof F L) := by
  have hl : ∀ i, (proofName i).length < 2 ^ 32 := by decide
  intro a b r s ha hb h
  have e : proofTag a = proofTag b := by
    obtain ⟨d, t, e1⟩ := serAmountProof_head (F := F) (L := L) a
    obtain ⟨d', t', e2⟩ := serAmountProof_head (F := F) (L := L) b
    rw [e1, e2, List.append_assoc, List.append_assoc] at h
    rcases hF.variant _ _ _ _ _ _ _ _ (by omega) (by omega) (hl _) (hl _) h with e | e
    · exact Fin.ext e
    · exact proofName_inj _ _ e
  cases a <;> cases b <;> first | (simp [proofTag] at e; done) | skip
  all_goals simp only [serAmountProof, List.append_assoc, List.length_append] at ha hb h
  · obtain ⟨e1, h1⟩ := uniq_bytes hF _ _ _ _ (by omega) (by omega) (List.append_cancel_left h)
    rw [hL.mp e1]
    exact ⟨rfl, h1⟩
  · obtain ⟨rfl, h1⟩ := uniq_rangeProof hF hL _ _ _ _ (by omega) (by omega) (List.append_cancel_left h)
    exact ⟨rfl, h1⟩
  · obtain ⟨e1, h1⟩ := uniq_cpx hF _ _ _ _ (by omega) (by omega) (List.append_cancel_left h)
    rw [hL.ap e1]
    exact ⟨rfl, h1⟩
  · obtain ⟨rfl, h1⟩ := uniq_rangeProof hF hL _ _ _ _ (by omega) (by omega) (List.append_cancel_left (List.append_cancel_left h))
    obtain ⟨e1, h2⟩ := uniq_cpx hF _ _ _ _ (by omega) (by omega) h1
    rw [hL.ap e1]
    exact ⟨rfl, h2⟩
  · exact ⟨rfl, List.append_cancel_left h⟩

theorem uniq_identity : Uniq (serIdentity F L) :=
  uniq_vec hF (uniq_vec hF (uniq_option hF ((uniq_cac hF).map hL.ipf) (fun _ => ⟨_, _, rfl⟩))
    (nonNil_option hF (fun _ => nonNil_cac hF _))) (nonNil_vec hF)

theorem uniq_xfrBody : Uniq (serXfrBody F L) := by
  rintro ⟨a1, a2, a3, a4, a5, a6, a7, a8⟩ ⟨b1, b2, b3, b4, b5, b6, b7, b8⟩ r s ha hb h
  simp only [serXfrBody, List.append_assoc, List.length_append] at ha hb h
  have ub := uniq_vec hF (uniq_bar hF hL) (nonNil_bar hF)
  obtain ⟨rfl, h1⟩ := ub _ _ _ _ (by omega) (by omega) (List.append_cancel_left h)
  obtain ⟨rfl, h2⟩ := ub _ _ _ _ (by omega) (by omega) h1
  obtain ⟨rfl, h3⟩ := uniq_amountProof hF hL _ _ _ _ (by omega) (by omega) (List.append_cancel_left h2)
  obtain ⟨rfl, h4⟩ := uniq_vec hF ((uniq_peg hF).map hL.tpf) (fun _ => nonNil_peg hF _) _ _ _ _ (by omega) (by omega)
    (List.append_cancel_left h3)
  obtain ⟨rfl, h5⟩ := uniq_identity hF hL _ _ _ _ (by omega) (by omega) h4
  obtain ⟨rfl, h6⟩ := uniq_identity hF hL _ _ _ _ (by omega) (by omega) h5
  obtain ⟨rfl, h7⟩ := uniq_vec hF (uniq_vec hF (uniq_tracerMemo hF hL) (nonNil_tracerMemo hF)) (nonNil_vec hF) _ _ _ _
    (by omega) (by omega) h6
  obtain ⟨rfl, h8⟩ := uniq_vec hF (uniq_option hF ((uniq_memo hF).map hL.om) (fun _ => ⟨_, _, rfl⟩))
    (nonNil_option hF (fun _ => nonNil_memo hF _)) _ _ _ _ (by omega) (by omega) h7
  exact ⟨rfl, h8⟩

variable {K Pf : Type} {bls : K → Bytes} {pf : Pf → WPlonk} (hbls : Function.Injective bls) (hpf : Function.Injective pf)

include hbls hpf

theorem uniq_arToAbar : Uniq (serArToAbar F L bls pf) := by
  rintro ⟨a1, a2, a3, a4⟩ ⟨b1, b2, b3, b4⟩ r s ha hb h
  simp only [serArToAbar, List.append_assoc, List.length_append] at ha hb h
  obtain ⟨rfl, h1⟩ := uniq_bar hF hL _ _ _ _ (by omega) (by omega) (List.append_cancel_left h)
  obtain ⟨e, h2⟩ := uniq_bytes hF _ _ _ _ (by omega) (by omega) (List.append_cancel_left h1)
  obtain rfl := hbls e
  obtain ⟨e, h3⟩ := uniq_plonk hF _ _ _ _ (by omega) (by omega) h2
  obtain rfl := hpf e
  obtain ⟨rfl, h4⟩ := uniq_axfrMemo hF _ _ _ _ (by omega) (by omega) h3
  exact ⟨rfl, h4⟩

variable {Q : SimFr.Params} {pt : S.G → Bytes} {sc : ZMod Q.r → Bytes} (hpt : Function.Injective pt) (hsc : Function.Injective sc)

include hpt hsc

omit hL hpf in
theorem uniq_schnorr : Uniq (serSchnorr F bls pt sc) := by
  have u1 : Uniq (fun e : ZMod Q.r × ZMod Q.r => F.tuple 2 ++ (F.bytes (sc e.1) ++ F.bytes (sc e.2))) := by
    rintro ⟨a1, a2⟩ ⟨b1, b2⟩ r s ha hb h
    simp only [List.append_assoc, List.length_append] at ha hb h
    obtain ⟨e1, h1⟩ := uniq_bytes hF _ _ _ _ (by omega) (by omega) (List.append_cancel_left h)
    obtain ⟨e2, h2⟩ := uniq_bytes hF _ _ _ _ (by omega) (by omega) h1
    rw [hsc e1, hsc e2]
    exact ⟨rfl, h2⟩
  have n1 : NonNil (fun e : ZMod Q.r × ZMod Q.r => F.tuple 2 ++ (F.bytes (sc e.1) ++ F.bytes (sc e.2))) := fun e h => by
    simp only [List.append_eq_nil_iff] at h
    exact nonNil_bytes hF _ h.2.1
  rintro ⟨a1, a2, a3⟩ ⟨b1, b2, b3⟩ r s ha hb h
  simp only [serSchnorr, List.append_assoc, List.length_append] at ha hb h
  obtain ⟨e, h1⟩ := uniq_bytes hF _ _ _ _ (by omega) (by omega) (List.append_cancel_left h)
  obtain rfl := hbls e
  obtain ⟨rfl, h2⟩ := uniq_vec hF ((uniq_bytes hF).map hpt) (fun _ => nonNil_bytes hF _) _ _ _ _ (by omega) (by omega) h1
  obtain ⟨rfl, h3⟩ := uniq_vec hF u1 n1 _ _ _ _ (by omega) (by omega) h2
  exact ⟨rfl, List.append_cancel_left h3⟩

theorem uniq_barToAbar : Uniq (serBarToAbar F L bls pf pt sc) := by
  rintro ⟨a1, a2, a3, a4, a5⟩ ⟨b1, b2, b3, b4, b5⟩ r s ha hb h
  simp only [serBarToAbar, List.append_assoc, List.length_append] at ha hb h
  obtain ⟨rfl, h1⟩ := uniq_bar hF hL _ _ _ _ (by omega) (by omega) (List.append_cancel_left h)
  obtain ⟨e, h2⟩ := uniq_bytes hF _ _ _ _ (by omega) (by omega) (List.append_cancel_left h1)
  obtain rfl := hbls e
  obtain ⟨rfl, h3⟩ := uniq_schnorr hF hbls hpt hsc _ _ _ _ (by omega) (by omega) (List.append_cancel_left h2)
  obtain ⟨e, h4⟩ := uniq_plonk hF _ _ _ _ (by omega) (by omega) h3
  obtain rfl := hpf e
  obtain ⟨rfl, h5⟩ := uniq_axfrMemo hF _ _ _ _ (by omega) (by omega) h4
  exact ⟨rfl, h5⟩

end

end Verif.Serde
